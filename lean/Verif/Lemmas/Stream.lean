import Mathlib.Tactic.SplitIfs
import Verif.Model.Stream
import Verif.Spec.Stream

/-!
# Lemmas about UTF-8 and the standard streams
-/

namespace Verif.Stream

open Spec (Scalar utf8 encode)

theorem encodeChar_scalar {c : Nat} (h : Scalar c) : encodeChar c = some (utf8 c) := by
  unfold Scalar at h
  unfold encodeChar utf8
  split_ifs <;> first | rfl | omega

theorem encodeChar_surrogate {c : Nat} (h : 0xD800 ≤ c ∧ c < 0xE000) : encodeChar c = none := by
  unfold encodeChar
  split_ifs <;> first | rfl | omega

/-- A code point of a string. -/
theorem asUTF8_eq {s : Str} (hs : ∀ c ∈ s, c < 0x110000) :
    asUTF8 s = if ∀ c ∈ s, Scalar c then some (encode s) else none := by
  induction s with
  | nil => rfl
  | cons c s ih =>
    have ih := ih fun d hd => hs d (List.mem_cons_of_mem _ hd)
    rw [asUTF8, ih]
    have hc := hs c (List.mem_cons_self ..)
    by_cases h : Scalar c
    · rw [encodeChar_scalar h]
      by_cases h2 : ∀ d ∈ s, Scalar d
      · rw [if_pos h2, if_pos (by simpa using ⟨h, h2⟩)]
        simp [encode]
      · rw [if_neg h2, if_neg (by simp only [List.mem_cons, forall_eq_or_imp]; exact fun k => h2 k.2)]
    · have : 0xD800 ≤ c ∧ c < 0xE000 := by unfold Scalar at h; omega
      rw [encodeChar_surrogate this, if_neg (c := ∀ d ∈ c :: s, Scalar d) (fun k => h (k c (List.mem_cons_self ..)))]

theorem utf8_ne_zero {c : Nat} (h : c ≠ 0) : 0 ∉ utf8 c := by
  unfold utf8
  split_ifs <;> simp <;> omega

theorem cstring_append {a b : List Nat} (h : 0 ∉ a) : cstring (a ++ b) = a ++ cstring b := by
  unfold cstring
  rw [List.takeWhile_append_of_pos]
  intro x hx
  simp only [bne_iff_ne, ne_eq]
  rintro rfl
  exact h hx

theorem cstring_self {a : List Nat} (h : 0 ∉ a) : cstring a = a := by
  simpa [cstring] using cstring_append (b := []) h

theorem encode_ne_zero {s : Str} (h : 0 ∉ s) : 0 ∉ encode s := by
  unfold encode
  simp only [List.mem_flatMap, not_exists, not_and]
  intro c hc
  exact utf8_ne_zero (by rintro rfl; exact h hc)

theorem encode_append (a b : Str) : encode (a ++ b) = encode a ++ encode b := by simp [encode]

theorem decode_utf8 {c : Nat} (h : Scalar c) (bs : List Nat) : decode (utf8 c ++ bs) = (decode bs).map (c :: ·) := by
  unfold Scalar at h
  unfold utf8
  split_ifs with h1 h2 h3
  · rw [List.singleton_append, decode.eq_def]
    simp only [if_pos h1]
  · simp only [List.cons_append, List.nil_append]
    rw [decode, if_neg (by omega), if_neg (by omega), if_pos (by omega)]
    have e : (0xC0 + c / 64 - 0xC0) * 0x40 + (0x80 + c % 64 - 0x80) = c := by omega
    have hc : cont (0x80 + c % 64) = true := by simp only [cont, Bool.and_eq_true, decide_eq_true_eq]; omega
    simp only [hc, if_true, e]
  · simp only [List.cons_append, List.nil_append]
    rw [decode, if_neg (by omega), if_neg (by omega), if_neg (by omega), if_pos (by omega)]
    have e : (0xE0 + c / 4096 - 0xE0) * 0x1000 + (0x80 + c / 64 % 64 - 0x80) * 0x40 + (0x80 + c % 64 - 0x80) = c := by omega
    have hc : (cont (0x80 + c / 64 % 64) && cont (0x80 + c % 64) && !(0xE0 + c / 4096 == 0xE0 && 0x80 + c / 64 % 64 < 0xA0) &&
        !(0xE0 + c / 4096 == 0xED && 0xA0 ≤ 0x80 + c / 64 % 64)) = true := by
      simp only [cont, Bool.and_eq_true, Bool.not_eq_true', Bool.and_eq_false_iff, decide_eq_true_eq, decide_eq_false_iff_not,
        beq_eq_false_iff_ne]
      omega
    simp only [hc, if_true, e]
  · simp only [List.cons_append, List.nil_append]
    rw [decode, if_neg (by omega), if_neg (by omega), if_neg (by omega), if_neg (by omega), if_pos (by omega)]
    have e : (0xF0 + c / 262144 - 0xF0) * 0x40000 + (0x80 + c / 4096 % 64 - 0x80) * 0x1000 +
        (0x80 + c / 64 % 64 - 0x80) * 0x40 + (0x80 + c % 64 - 0x80) = c := by omega
    have hc : (cont (0x80 + c / 4096 % 64) && cont (0x80 + c / 64 % 64) && cont (0x80 + c % 64) &&
        !(0xF0 + c / 262144 == 0xF0 && 0x80 + c / 4096 % 64 < 0x90) &&
        !(0xF0 + c / 262144 == 0xF4 && 0x90 ≤ 0x80 + c / 4096 % 64)) = true := by
      simp only [cont, Bool.and_eq_true, Bool.not_eq_true', Bool.and_eq_false_iff, decide_eq_true_eq, decide_eq_false_iff_not,
        beq_eq_false_iff_ne]
      omega
    simp only [hc, if_true, e]

theorem decode_encode {s : Str} (h : ∀ c ∈ s, Scalar c) (bs : List Nat) :
    decode (encode s ++ bs) = (decode bs).map (s ++ ·) := by
  induction s with
  | nil => simp [encode]
  | cons c s ih =>
    have e : encode (c :: s) = utf8 c ++ encode s := rfl
    rw [e, List.append_assoc, decode_utf8 (h c (List.mem_cons_self ..)), ih fun d hd => h d (List.mem_cons_of_mem _ hd)]
    cases decode bs <;> rfl

theorem decode_text {s : Str} (h : ∀ c ∈ s, Scalar c) : decode (encode s) = some s := by
  have := decode_encode h []
  simpa [decode] using this

/-! ### Writing -/

theorem send_all (k : Nat) (io : Std) : (send k io).sent ++ (send k io).waiting = io.sent ++ io.waiting := by
  simp [send]

/-- Every string is one a Python program can make, without zero characters. -/
def Plain : List Put → Prop
  | [] => True
  | .fputs (.str s) _ :: os => (∀ c ∈ s, c < 0x110000 ∧ c ≠ 0) ∧ Plain os
  | _ :: os => Plain os

theorem put_written {op : Put} {ops : List Put} {io : Std} (h : Plain (op :: ops)) :
    (put op io).1.sent ++ (put op io).1.waiting ++ Spec.written ops = io.sent ++ io.waiting ++ Spec.written (op :: ops) ∧
      Plain ops := by
  cases op with
  | fflush => exact ⟨by simp only [put, fflush, send_all, Spec.written], h⟩
  | fputs s k =>
    cases s with
    | other => exact ⟨rfl, h⟩
    | str s =>
      obtain ⟨h1, h2⟩ := h
      refine ⟨?_, h2⟩
      simp only [put, fputs, Spec.written]
      rw [asUTF8_eq fun c hc => (h1 c hc).1]
      by_cases hs : ∀ c ∈ s, Scalar c
      · rw [if_pos hs, if_pos hs]
        have h0 : 0 ∉ s := fun hm => (h1 0 hm).2 rfl
        simp only [cstring_self (encode_ne_zero h0), send_all]
        simp
      · rw [if_neg hs, if_neg hs]
        simp

theorem puts_written : ∀ {ops : List Put} {io : Std}, Plain ops →
    (puts ops io).1.sent ++ (puts ops io).1.waiting = io.sent ++ io.waiting ++ Spec.written ops := by
  intro ops
  induction ops with
  | nil => intro io _; simp [puts, Spec.written]
  | cons op ops ih =>
    intro io h
    obtain ⟨h1, h2⟩ := put_written (io := io) h
    rw [puts, ih h2, h1]

theorem puts_append : ∀ (a b : List Put) (io : Std),
    puts (a ++ b) io = ((puts b (puts a io).1).1, (puts a io).2 ++ (puts b (puts a io).1).2) := by
  intro a
  induction a with
  | nil => intro b io; rfl
  | cons op a ih => intro b io; simp only [List.cons_append, puts, ih]

/-! ### Reading -/

theorem readUpTo_append : ∀ (k : Nat) (bs : List Nat), (readUpTo k bs).1 ++ (readUpTo k bs).2 = bs := by
  intro k
  induction k with
  | zero => intro bs; cases bs <;> rfl
  | succ k ih =>
    intro bs
    cases bs with
    | nil => rfl
    | cons b bs =>
      rw [readUpTo]
      split
      · rfl
      · simp [ih]

/-- Bytes without newline that fit are read, and reading goes on behind them. -/
theorem readUpTo_skip : ∀ {a bs : List Nat} {k : Nat}, 10 ∉ a → a.length ≤ k →
    readUpTo k (a ++ bs) = (a ++ (readUpTo (k - a.length) bs).1, (readUpTo (k - a.length) bs).2) := by
  intro a
  induction a with
  | nil => intro bs k _ _; simp
  | cons x a ih =>
    intro bs k h hk
    simp only [List.mem_cons, not_or] at h
    cases k with
    | zero => simp at hk
    | succ k =>
      rw [List.cons_append, readUpTo, if_neg (Ne.symm h.1), ih h.2 (by simpa using hk)]
      simp

theorem utf8_no_newline {c : Nat} (h : c ≠ 10) : 10 ∉ utf8 c := by
  unfold utf8
  split_ifs <;> simp <;> omega

theorem encode_no_newline {s : Str} (h : 10 ∉ s) : 10 ∉ encode s := by
  unfold encode
  simp only [List.mem_flatMap, not_exists, not_and]
  intro c hc
  exact utf8_no_newline (by rintro rfl; exact h hc)

theorem utf8_length_pos (c : Nat) : 1 ≤ (utf8 c).length := by
  unfold utf8
  split_ifs <;> simp

theorem length_le_encode (s : Str) : s.length ≤ (encode s).length := by
  induction s with
  | nil => simp
  | cons c s ih =>
    have := utf8_length_pos c
    have e : encode (c :: s) = utf8 c ++ encode s := rfl
    rw [e, List.length_append, List.length_cons]
    omega

/-- The text is ASCII, or its lines, with their newlines, fit into the buffer. -/
def Whole (n : Nat) (t : Str) : Prop :=
  (∀ c ∈ t, c < 128) ∨ ∀ b, b <:+: t → 10 ∉ b → (encode b).length + 2 ≤ n

theorem encode_ascii {t : Str} (h : ∀ c ∈ t, c < 128) : encode t = t := by
  induction t with
  | nil => rfl
  | cons c t ih =>
    have e : encode (c :: t) = utf8 c ++ encode t := rfl
    have hc := h c (List.mem_cons_self ..)
    rw [e, ih fun d hd => h d (List.mem_cons_of_mem _ hd), utf8, if_pos hc]
    rfl

theorem take_append : ∀ (k : Nat) (t : Str), (Spec.take k t).1 ++ (Spec.take k t).2 = t := by
  intro k
  induction k with
  | zero => intro t; cases t <;> rfl
  | succ k ih =>
    intro t
    cases t with
    | nil => rfl
    | cons c t =>
      rw [Spec.take]
      split
      · rfl
      · simp [ih]

theorem readUpTo_ascii : ∀ (k : Nat) (t : Str), readUpTo k t = Spec.take k t := by
  intro k
  induction k with
  | zero => intro t; cases t <;> rfl
  | succ k ih =>
    intro t
    cases t with
    | nil => rfl
    | cons c t => rw [readUpTo, Spec.take, ih]

/-- A text is a line followed by the rest, or one unfinished line. -/
theorem line_split (t : Str) : (∃ a r, t = a ++ 10 :: r ∧ 10 ∉ a) ∨ 10 ∉ t := by
  by_cases h : 10 ∈ t
  · obtain ⟨a, r, e, ha⟩ := List.eq_append_cons_of_mem h
    exact .inl ⟨a, r, e, ha⟩
  · exact .inr h

theorem take_line : ∀ {a r : Str} {k : Nat}, 10 ∉ a → a.length < k → Spec.take k (a ++ 10 :: r) = (a ++ [10], r) := by
  intro a
  induction a with
  | nil =>
    intro r k _ hk
    cases k with
    | zero => simp at hk
    | succ k => simp [Spec.take]
  | cons x a ih =>
    intro r k h hk
    simp only [List.mem_cons, not_or] at h
    cases k with
    | zero => simp at hk
    | succ k =>
      rw [List.cons_append, Spec.take, if_neg (Ne.symm h.1), ih h.2 (by simpa using hk)]
      rfl

theorem take_end : ∀ {a : Str} {k : Nat}, 10 ∉ a → a.length ≤ k → Spec.take k a = (a, []) := by
  intro a
  induction a with
  | nil => intro k _ _; cases k <;> rfl
  | cons x a ih =>
    intro k h hk
    simp only [List.mem_cons, not_or] at h
    cases k with
    | zero => simp at hk
    | succ k => rw [Spec.take, if_neg (Ne.symm h.1), ih h.2 (by simpa using hk)]

/-- The bytes read are those of the characters that should be read. -/
theorem readUpTo_text {n : Nat} {t : Str} (h : Whole n t) :
    readUpTo (n - 1) (encode t) = (encode (Spec.take (n - 1) t).1, encode (Spec.take (n - 1) t).2) := by
  rcases h with h | h
  · have h1 : ∀ c ∈ (Spec.take (n - 1) t).1, c < 128 := fun c hc => h c (by rw [← take_append (n - 1) t]; simp [hc])
    have h2 : ∀ c ∈ (Spec.take (n - 1) t).2, c < 128 := fun c hc => h c (by rw [← take_append (n - 1) t]; simp [hc])
    rw [encode_ascii h, encode_ascii h1, encode_ascii h2, readUpTo_ascii]
  · rcases line_split t with ⟨a, r, rfl, ha⟩ | ha
    · have hl := h a ⟨[], 10 :: r, by simp⟩ ha
      have hle := length_le_encode a
      rw [take_line ha (by omega), encode_append]
      rw [readUpTo_skip (encode_no_newline ha) (by omega)]
      obtain ⟨m, hm⟩ : ∃ m, n - 1 - (encode a).length = m + 1 := ⟨n - 2 - (encode a).length, by omega⟩
      have e : encode (10 :: r) = 10 :: encode r := rfl
      rw [hm, e, readUpTo, if_pos rfl, encode_append]
      rfl
    · have hl := h t (List.infix_refl t) ha
      have hle := length_le_encode t
      have := readUpTo_skip (bs := []) (k := n - 1) (encode_no_newline ha) (by omega)
      rw [List.append_nil] at this
      rw [this, take_end ha (by omega)]
      cases n - 1 - (encode t).length <;> simp [readUpTo, encode]

theorem whole_rest {n k : Nat} {t : Str} (h : Whole n t) : Whole n (Spec.take k t).2 := by
  have e := take_append k t
  rcases h with h | h
  · exact .inl fun c hc => h c (by rw [← e]; simp [hc])
  · refine .inr fun b hb => h b (hb.trans ⟨(Spec.take k t).1, [], by simpa using e⟩)

theorem wrap_small {n : Nat} (h : n < 2 ^ 31) : bufferSize (.int n) = n := by
  have hf : FitsS 64 (n : Int) := by unfold FitsS; omega
  simp only [bufferSize, asLong, if_pos hf, wrapS, Int.bmod]
  omega

theorem encode_nil {t : Str} : encode t = [] ↔ t = [] := by
  constructor
  · intro h
    have := length_le_encode t
    rw [h] at this
    exact List.eq_nil_of_length_eq_zero (by simpa using this)
  · rintro rfl; rfl

/-- One call on a text that is not at its end. -/
theorem fgets_text {n : Nat} {t : Str} {io : Std} (h2 : 2 ≤ n) (hn : bufferSize (.int n) = n) (hw : Whole n t)
    (hs : ∀ c ∈ t, Scalar c ∧ c ≠ 0) (hi : io.input = encode t) (ht : t ≠ []) :
    fgets (.int n) io = ({ io with input := encode (Spec.fgets n t).2, lost := io.lost + n }, .ok (Spec.fgets n t).1) := by
  have hne : encode t ≠ [] := by rwa [Ne, encode_nil]
  have h1 : ∀ c ∈ (Spec.take (n - 1) t).1, Scalar c ∧ c ≠ 0 := fun c hc => hs c (by rw [← take_append (n - 1) t]; simp [hc])
  have h0 : 0 ∉ (Spec.take (n - 1) t).1 := fun hm => (h1 0 hm).2 rfl
  have hc : cfgets n (encode t) = (some (encode (Spec.take (n - 1) t).1), encode (Spec.take (n - 1) t).2) := by
    rw [cfgets, if_neg (by clear hn; omega), if_neg hne, readUpTo_text hw]
  have hpos : ¬ ((n : Int) ≤ 0) := by clear hn; omega
  rw [fgets, hn, fgetsInto, if_neg hpos]
  simp only [Int.toNat_natCast, hi, hc, cstring_self (encode_ne_zero h0), decode_text fun c hc => (h1 c hc).1]
  rfl

theorem fgets_end {n : Nat} {io : Std} (h2 : 2 ≤ n) (hn : bufferSize (.int n) = n) (hi : io.input = []) :
    fgets (.int n) io = ({ io with lost := io.lost + n }, .error .runtimeError) := by
  have hc : cfgets n [] = (none, []) := by rw [cfgets, if_neg (by clear hn; omega), if_pos rfl]
  have hpos : ¬ ((n : Int) ≤ 0) := by clear hn; omega
  rw [fgets, hn, fgetsInto, if_neg hpos]
  simp only [Int.toNat_natCast, hi, hc]

theorem take_props : ∀ {k : Nat} {t : Str}, 0 < k → t ≠ [] → (Spec.take k t).1 ≠ [] ∧ 10 ∉ (Spec.take k t).1.dropLast ∧
    (Spec.take k t).1.length ≤ k ∧
    ((Spec.take k t).2 ≠ [] → (Spec.take k t).1.getLast? = some 10 ∨ (Spec.take k t).1.length = k) := by
  intro k
  induction k with
  | zero => intro t h; omega
  | succ k ih =>
    intro t _ ht
    cases t with
    | nil => exact absurd rfl ht
    | cons c t =>
      rw [Spec.take]
      split
      · rename_i hc
        simp [hc]
      · rename_i hc
        cases k with
        | zero => simp [Spec.take]
        | succ k =>
          cases t with
          | nil => simp [Spec.take]
          | cons d t =>
            obtain ⟨i1, i2, i3, i4⟩ := ih (t := d :: t) (by omega) (by simp)
            refine ⟨by simp, ?_, by simpa using i3, fun h => ?_⟩
            · simp only
              rw [List.dropLast_cons_of_ne_nil i1]
              simp only [List.mem_cons, not_or]
              exact ⟨fun e => hc e.symm, i2⟩
            · rcases i4 h with i | i
              · left
                rw [List.getLast?_cons, i]
                rfl
              · right
                simpa using i

theorem gets_succ {n : Arg} {k : Nat} {io io' : Std} {r : Except Exc Str} (h : fgets n io = (io', r)) :
    gets n (k + 1) io = ((gets n k io').1, r :: (gets n k io').2) := by rw [gets, h]

/-- Repeated calls return the whole text. -/
theorem gets_text' {n : Nat} {a : Arg} (h2 : 2 ≤ n)
    (hT : ∀ (t : Str) (io : Std), Whole n t → (∀ c ∈ t, Scalar c ∧ c ≠ 0) → io.input = encode t → t ≠ [] →
      fgets a io = ({ io with input := encode (Spec.fgets n t).2, lost := io.lost + n }, .ok (Spec.fgets n t).1))
    (hE : ∀ io : Std, io.input = [] → fgets a io = ({ io with lost := io.lost + n }, .error .runtimeError)) : ∀ (m : Nat) {t : Str} {io : Std}, t.length ≤ m → Whole n t →
    (∀ c ∈ t, Scalar c ∧ c ≠ 0) → io.input = encode t →
    ∃ ps, Spec.Pieces n t ps ∧ (gets a (ps.length + 1) io).2 = ps.map .ok ++ [.error .runtimeError] ∧
      (gets a (ps.length + 1) io).1.input = [] ∧
      (gets a (ps.length + 1) io).1.lost = io.lost + n * (ps.length + 1) := by
  intro m
  induction m with
  | zero =>
    intro t io hm hw hs hi
    have ht : t = [] := List.eq_nil_of_length_eq_zero (by omega)
    subst ht
    refine ⟨[], ⟨rfl, by simp, by simp, by simp, by simp⟩, ?_⟩
    have := hE io (by rw [hi]; rfl)
    rw [List.length_nil, gets_succ this]
    simp only [gets]
    refine ⟨rfl, ?_, by simp⟩
    rw [hi]
    rfl
  | succ m ih =>
    intro t io hm hw hs hi
    by_cases ht : t = []
    · subst ht
      exact ih (by simp) hw hs hi
    · have hstep := hT t io hw hs hi ht
      obtain ⟨p1, p2, p3, p4⟩ := take_props (k := n - 1) (t := t) (by omega) ht
      have happ := take_append (n - 1) t
      have hlen := congrArg List.length happ
      rw [List.length_append] at hlen
      have hpos := List.length_pos_iff.mpr p1
      obtain ⟨ps, hp, g1, g2, g3⟩ := ih (t := (Spec.fgets n t).2)
        (io := { io with input := encode (Spec.fgets n t).2, lost := io.lost + n })
        (by show (Spec.take (n - 1) t).2.length ≤ m; omega) (whole_rest hw)
        (fun c hc => hs c (by rw [← happ]; simp only [List.mem_append]; exact .inr hc)) rfl
      refine ⟨(Spec.fgets n t).1 :: ps, ⟨?_, ?_, ?_, ?_, ?_⟩, ?_, ?_, ?_⟩
      · rw [List.flatten_cons, hp.all]; exact happ
      · simpa using ⟨p1, hp.nonempty⟩
      · simpa using ⟨p2, hp.line⟩
      · intro p hm
        rcases List.mem_cons.mp hm with rfl | hm
        · exact p3
        · exact hp.short p hm
      · intro p hm
        by_cases hps : ps = []
        · subst hps; simp at hm
        · rw [List.dropLast_cons_of_ne_nil hps] at hm
          rcases List.mem_cons.mp hm with rfl | hm
          · refine p4 fun h0 => hps ?_
            have := hp.all
            rw [show (Spec.fgets n t).2 = [] from h0] at this
            rcases ps with _ | ⟨q, qs⟩
            · rfl
            · rw [List.flatten_cons] at this
              exact absurd (List.append_eq_nil_iff.mp this).1 (hp.nonempty q (List.mem_cons_self ..))
          · exact hp.full p hm
      · rw [List.length_cons, gets_succ hstep, g1, List.map_cons, List.cons_append]
      · rw [List.length_cons, gets_succ hstep, g2]
      · rw [List.length_cons, gets_succ hstep, g3, Nat.mul_succ n (ps.length + 1), Nat.add_assoc, Nat.add_comm n]

theorem gets_text {n : Nat} (h2 : 2 ≤ n) (hn : bufferSize (.int n) = n) {t : Str} {io : Std} (hw : Whole n t)
    (hs : ∀ c ∈ t, Scalar c ∧ c ≠ 0) (hi : io.input = encode t) :
    ∃ ps, Spec.Pieces n t ps ∧ (gets (.int n) (ps.length + 1) io).2 = ps.map .ok ++ [.error .runtimeError] ∧
      (gets (.int n) (ps.length + 1) io).1.input = [] ∧
      (gets (.int n) (ps.length + 1) io).1.lost = io.lost + n * (ps.length + 1) :=
  gets_text' h2 (fun _ _ a b c d => fgets_text h2 hn a b c d) (fun _ h => fgets_end h2 hn h) t.length (Nat.le_refl _) hw hs hi

end Verif.Stream
