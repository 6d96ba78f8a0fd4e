import Verif.Lemmas.CPySortMerge

/-!
# Run powers: `powerloop`, `found_new_run` and the height of the stack
-/

namespace Verif.CPySort

open Verif.Spec

variable {σ ε α : Type}

/-- The first `r` binary digits of `x / (2 n)`. -/
def bits (n : Int) (r : Nat) (x : Int) : Int := 2 ^ r * x / (2 * n)

theorem bits_half (n : Int) (hn : 0 < n) (r : Nat) (x : Int) : bits n (r + 1) x / 2 = bits n r x := by
  unfold bits
  rw [Int.ediv_ediv_of_nonneg (by omega), Int.pow_succ, show 2 ^ r * 2 * x = (2 ^ r * x) * 2 by
    rw [Int.mul_assoc, Int.mul_comm 2 x, ← Int.mul_assoc], Int.mul_ediv_mul_of_pos_left _ _ (by omega)]

theorem bits_eq_down {n : Int} (hn : 0 < n) {x y : Int} {r : Nat} (q : Nat) (h : bits n r x = bits n r y) (hq : q ≤ r) :
    bits n q x = bits n q y := by
  obtain ⟨d, rfl⟩ := Nat.exists_eq_add_of_le hq
  clear hq
  induction d with
  | zero => simpa using h
  | succ d ih =>
    apply ih
    have hx := bits_half n hn (q + d) x
    have hy := bits_half n hn (q + d) y
    rw [show q + d + 1 = q + (d + 1) by omega] at hx hy
    rw [← hx, ← hy, h]

theorem two_pow_mono {a b : Nat} (h : a ≤ b) : (2 : Int) ^ a ≤ 2 ^ b := by
  have := Nat.pow_le_pow_right (n := 2) (by omega) h
  exact_mod_cast this

/-- What `powerloop` computes: the first digit in which the two midpoints differ. -/
def IsPower (n a b : Int) (p : Nat) : Prop :=
  1 ≤ p ∧ bits n p a < bits n p b ∧ bits n (p - 1) a = bits n (p - 1) b

theorem powerLoop_spec (n a0 b0 : Int) (h0 : 0 ≤ a0) (hab : a0 + 2 ≤ b0) (hb : b0 < 2 * n) (hmax : n < 2 ^ 60) :
    ∀ (f : Nat) (a b : Int) (r : Nat) (q : Int) (s : St σ ε), f + r ≥ 61 →
      a = 2 ^ r * a0 - 2 * n * q → b = 2 ^ r * b0 - 2 * n * q → 0 ≤ a → b < 2 * n →
      Ok (powerLoop n f a b r) s (fun p s' => s' = s ∧ IsPower n a0 b0 p ∧ p ≤ 60) := by
  have hn : 0 < n := by omega
  intro f
  induction f with
  | zero =>
    intro a b r q s hf ha hb' ha0 hb1
    exfalso
    have h1 : (2 : Int) ^ 61 ≤ 2 ^ r := two_pow_mono (by omega)
    have h2 : (2 : Int) ^ r * a0 + 2 ^ r * 2 ≤ 2 ^ r * b0 := by
      rw [← Int.mul_add]
      exact Int.mul_le_mul_of_nonneg_left hab (Int.le_of_lt (Int.pow_pos (by omega)))
    omega
  | succ f ih =>
    intro a b r q s hf ha hb' ha0 hb1
    have h2 : (2 : Int) ^ r * a0 + 2 ^ r * 2 ≤ 2 ^ r * b0 := by
      rw [← Int.mul_add]
      exact Int.mul_le_mul_of_nonneg_left hab (Int.le_of_lt (Int.pow_pos (by omega)))
    have hpos : (0 : Int) < 2 ^ r := Int.pow_pos (by omega)
    have hlt : a < b := by omega
    have hs1 : ∀ x : Int, (2 : Int) ^ (r + 1) * x = 2 * (2 ^ r * x) := by
      intro x; rw [Int.pow_succ, Int.mul_comm (2 ^ r) 2, Int.mul_assoc]
    have hq2 : ∀ c : Int, 2 * n * (2 * q + c) = 2 * (2 * n * q) + 2 * n * c := by
      intro c; rw [Int.mul_add, ← Int.mul_assoc, Int.mul_comm (2 * n) 2, Int.mul_assoc]
    have hr : 2 ^ (r + 1) < (2 : Int) ^ 61 := by
      have := hs1 1
      omega
    have hr60 : r + 1 ≤ 60 := by
      rcases Nat.lt_or_ge 60 (r + 1) with hc | hc
      · exfalso
        have : (2 : Int) ^ 61 ≤ 2 ^ (r + 1) := two_pow_mono (by omega)
        omega
      · exact hc
    have hbits : ∀ x y : Int, y = 2 ^ r * x - 2 * n * q → 0 ≤ y → y < 2 * n → bits n r x = q := by
      intro x y hy h0 h1
      unfold bits
      rw [show 2 ^ r * x = y + 2 * n * q by omega, Int.add_mul_ediv_left _ _ (by omega), Int.ediv_eq_zero_of_lt h0 h1]
      omega
    unfold powerLoop
    split
    · rename_i h1
      rw [ok_bind, ok_check]
      refine ⟨by simp only [decide_eq_true_eq]; omega, ?_⟩
      rw [ok_bind, ok_check]
      refine ⟨by simp only [decide_eq_true_eq]; omega, ?_⟩
      refine ih _ _ (r + 1) (2 * q + 1) s (by omega) ?_ ?_ (by omega) (by omega)
      · rw [hs1, hq2]; omega
      · rw [hs1, hq2]; omega
    · rename_i h1
      split
      · rename_i h2
        rw [ok_pure]
        refine ⟨rfl, ⟨by omega, ?_, ?_⟩, hr60⟩
        · have e1 : bits n (r + 1) a0 = 2 * q := by
            unfold bits
            rw [hs1, show 2 * (2 ^ r * a0) = 2 * a + 2 * n * (2 * q) by have := hq2 0; simp at this; omega,
              Int.add_mul_ediv_left _ _ (by omega), Int.ediv_eq_zero_of_lt (by omega) (by omega)]
            omega
          have e2 : bits n (r + 1) b0 = 2 * q + 1 := by
            unfold bits
            rw [hs1, show 2 * (2 ^ r * b0) = (2 * b - 2 * n) + 2 * n * (2 * q + 1) by have := hq2 1; omega,
              Int.add_mul_ediv_left _ _ (by omega), Int.ediv_eq_zero_of_lt (by omega) (by omega)]
            omega
          omega
        · simp only [Nat.add_sub_cancel]
          rw [hbits a0 a ha ha0 (by omega), hbits b0 b hb' (by omega) hb1]
      · rename_i h2
        rw [ok_bind, ok_check]
        refine ⟨by simp only [decide_eq_true_eq]; omega, ?_⟩
        refine ih _ _ (r + 1) (2 * q + 0) s (by omega) ?_ ?_ (by omega) (by omega)
        · rw [hs1, hq2]; omega
        · rw [hs1, hq2]; omega

theorem powerloop_spec (s1 n1 n2 n : Int) (h1 : 0 ≤ s1) (h2 : 0 < n1) (h3 : 0 < n2) (h4 : s1 + n1 + n2 ≤ n)
    (hmax : n < 2 ^ 60) (s : St σ ε) :
    Ok (powerloop s1 n1 n2 n) s (fun p s' => s' = s ∧ IsPower n (2 * s1 + n1) (2 * (s1 + n1) + n2) p ∧ p ≤ 60) := by
  unfold powerloop
  rw [ok_bind, ok_check]
  refine ⟨by simp only [decide_eq_true_eq]; omega, ?_⟩
  simp only
  have e : 2 * s1 + n1 + n1 + n2 = 2 * (s1 + n1) + n2 := by omega
  rw [e]
  exact powerLoop_spec n (2 * s1 + n1) (2 * (s1 + n1) + n2) (by omega) (by omega) (by omega) hmax 64 _ _ 0 0 s (by omega)
    (by simp) (by simp) (by omega) (by omega)

/-- The entries below one whose first natural run has midpoint `fn`: powers decrease going down and stay
below `q`; each is the power of the boundary between the entry's last natural run and the next entry's first
one, and everything inside an entry agrees on that many digits. -/
def Below (n : Int) : Int → Nat → List Run → Prop
  | _, _, [] => True
  | fn, q, r :: rs => ∃ p f l, r.power = some p ∧ p < q ∧ IsPower n l fn p ∧ bits n p f = bits n p l ∧ Below n f p rs

theorem Below.mono {n fn : Int} {q q' : Nat} {rs : List Run} (b : Below n fn q rs) (h : q ≤ q') : Below n fn q' rs := by
  cases rs with
  | nil => trivial
  | cons r rs =>
    obtain ⟨p, f, l, h1, h2, h3⟩ := b
    exact ⟨p, f, l, h1, by omega, h3⟩

theorem Below.height {n : Int} : ∀ {rs : List Run} {fn : Int} {q : Nat}, Below n fn q rs → 1 ≤ q → rs.length + 1 ≤ q
  | [], _, _, _, hq => by simpa using hq
  | _ :: rs, _, _, ⟨p, _, _, _, h2, h3, _, h5⟩, _ => by
    have := Below.height h5 h3.1
    simp only [List.length_cons]
    omega

/-- The stack outside `found_new_run`: the top is a natural run. -/
def Top (n : Int) : List Run → Prop
  | [] => True
  | t :: rs => Below n (2 * t.base + t.len) 61 rs

/-- Everything the main loop maintains when the first `lo` elements have been consumed. -/
structure Inv (h : Host σ ε) (lt : ε → ε → Bool) (O : List ε) (segs : List (List ε)) (R : List ε) (s : St σ ε) : Prop where
  stk : Stk h lt s.pending segs
  mem : s.mem = flat segs ++ R
  perm : (flat segs ++ R).Perm O
  order : Good h lt → SameOrder lt (flat segs ++ R) O

/-- The sort was interrupted: an exception is set, and nothing was lost. -/
def Broken (h : Host σ ε) (O : List ε) (s : St σ ε) : Prop := Raised h s ∧ s.mem.Perm O

theorem Stk.cons_of {h : Host σ ε} {lt : ε → ε → Bool} {r : Run} {rs : List Run} {segs : List (List ε)}
    (k : Stk h lt (r :: rs) segs) : ∃ g gs, segs = g :: gs := by
  match segs, k with
  | g :: gs, _ => exact ⟨g, gs, rfl⟩

theorem mergeWhile_spec (h : Host σ ε) (lt : ε → ε → Bool) (O R : List ε) (n : Int) (hn : 0 < n) (q : Nat) (l : Int)
    (hmax : O.length < 2 ^ 60) :
    ∀ (f : Nat) (s : St σ ε) (segs : List (List ε)) (t : Run) (rs : List Run) (ft : Int), s.pending = t :: rs →
      Inv h lt O segs R s → Below n ft 61 rs → bits n q ft = bits n q l → rs.length + 1 ≤ f →
      Ok (mergeWhile h q f) s (fun r s' => (r = none → Broken h O s') ∧ (r.isSome → s'.err = s.err ∧
        ∃ segs' t' rs' ft', s'.pending = t' :: rs' ∧ Inv h lt O segs' R s' ∧ Below n ft' 61 rs' ∧
          bits n q ft' = bits n q l ∧ t'.base + t'.len = t.base + t.len ∧
          ∀ a ∈ rs'.head?, ∀ p, a.power = some p → p ≤ q)) := by
  intro f
  induction f with
  | zero => intro s segs t rs ft hp inv hb he hf; omega
  | succ f ih =>
    intro s segs t rs ft hp inv hb he hf
    unfold mergeWhile
    rw [ok_bind, ok_get, hp]
    match rs, hb, hf with
    | [], hb, hf =>
      show Ok (pure (some ())) s _
      rw [ok_pure]
      exact ⟨by simp, fun _ => ⟨rfl, segs, t, [], ft, hp, inv, hb, he, rfl, by simp⟩⟩
    | a :: rs, ⟨p, fa, la, hpow, hp61, hip, hfl, hbel⟩, hf =>
      simp only [hpow]
      split
      · rename_i hgt
        rw [ok_bind]
        have hlen : s.mem.length < 2 ^ 60 := by rw [inv.mem, inv.perm.length_eq]; exact hmax
        refine (mergeAt_spec h lt R s a t rs segs hp inv.stk inv.mem hlen).mono ?_
        rintro r s1 ⟨p1, e1, segs1, m1, pm1, k1⟩
        have perm1 : (flat segs1 ++ R).Perm O := (List.Perm.append_right _ pm1).trans inv.perm
        match r, e1, k1 with
        | none, e1, _ =>
          simp only [ok_pure]
          exact ⟨fun _ => ⟨e1, by rw [m1]; exact perm1⟩, by simp⟩
        | some _, e1, k1 =>
          obtain ⟨k1, o1⟩ := k1 rfl
          simp only
          have inv1 : Inv h lt O segs1 R s1 :=
            ⟨by rw [p1]; exact k1, m1, perm1, fun G => ((o1 G).append (SameOrder.refl R)).trans (inv.order G)⟩
          have hq : bits n q fa = bits n q l := by
            have h1 := bits_eq_down hn q hfl (by omega)
            have h2 := bits_eq_down hn q hip.2.2 (by omega)
            rw [h1, h2, he]
          refine (ih s1 segs1 _ rs fa p1 inv1 (hbel.mono (by omega)) hq (by simpa using hf)).mono ?_
          rintro r s2 ⟨f1, f2⟩
          refine ⟨f1, fun hr => ?_⟩
          obtain ⟨e2, segs2, t2, rs2, ft2, a1, a2, a3, a4, a5, a6⟩ := f2 hr
          refine ⟨Eq.trans e2 e1, segs2, t2, rs2, ft2, a1, a2, a3, a4, ?_, a6⟩
          rw [a5]
          have hk := inv.stk
          rw [hp] at hk
          match segs, hk with
          | gb :: ga :: gs, hk =>
            obtain ⟨b1, b2, b3, b4, a1, a2, a3, a4, hk⟩ := hk
            simp only [flat, List.length_append] at b1
            simp only
            omega
      · rename_i hle
        rw [ok_pure]
        refine ⟨by simp, fun _ => ⟨rfl, segs, t, a :: rs, ft, hp, inv, ⟨p, fa, la, hpow, hp61, hip, hfl, hbel⟩, he, rfl, ?_⟩⟩
        intro a' ha p' hp'
        simp at ha
        subst ha
        rw [hpow] at hp'
        cases hp'
        omega

/-- Two consecutive powers are never equal. -/
theorem power_ne {n : Int} (hn : 0 < n) {la ft l fn : Int} {p : Nat} (h1 : IsPower n la ft p) (h2 : IsPower n l fn p)
    (h3 : bits n p ft = bits n p l) : False := by
  obtain ⟨p1, a1, a2⟩ := h1
  obtain ⟨_, b1, b2⟩ := h2
  obtain ⟨k, rfl⟩ : ∃ k, p = k + 1 := ⟨p - 1, by omega⟩
  simp only [Nat.add_sub_cancel] at a2 b2
  have := bits_half n hn k la
  have := bits_half n hn k ft
  have := bits_half n hn k l
  have := bits_half n hn k fn
  omega

theorem foundNewRun_spec (h : Host σ ε) (lt : ε → ε → Bool) (O R : List ε) (n2 : Int) (s : St σ ε) (segs : List (List ε))
    (inv : Inv h lt O segs R s) (top : Top O.length s.pending) (hn2 : 0 < n2) (hR : n2 ≤ R.length)
    (hmax : O.length < 2 ^ 60) :
    Ok (foundNewRun h O.length n2) s (fun r s' => (r = none → Broken h O s') ∧ (r.isSome → s'.err = s.err ∧
        ∃ segs', Inv h lt O segs' R s' ∧ s'.pending.length < 64 ∧
          Below O.length (2 * (flat segs').length + n2) 61 s'.pending)) := by
  have hOl := inv.perm.length_eq
  simp only [List.length_append] at hOl
  unfold foundNewRun
  rw [ok_bind, ok_get]
  cases hp : s.pending with
  | nil =>
    show Ok (pure (some ())) s _
    rw [ok_pure]
    refine ⟨by simp, fun _ => ⟨rfl, segs, inv, by simp [hp], by rw [hp]; trivial⟩⟩
  | cons t rs =>
    simp only
    have hk := inv.stk
    rw [hp] at hk top
    obtain ⟨g, gs, rfl⟩ := hk.cons_of
    obtain ⟨t1, t2, t3, t4, hk⟩ := hk
    have hgl : 0 < g.length := List.length_pos_iff.2 t3
    simp only [flat, List.length_append] at hOl
    rw [ok_bind]
    refine (powerloop_spec t.base t.len n2 O.length (by omega) (by omega) hn2 (by omega) (by omega) s).mono ?_
    rintro q s0 ⟨hs0, hq, hq60⟩
    subst s0
    rw [ok_bind]
    refine (mergeWhile_spec h lt O R O.length (by omega) q (2 * t.base + t.len) hmax (rs.length + 1) s (g :: gs) t rs
      (2 * t.base + t.len) hp inv top rfl (Nat.le_refl _)).mono ?_
    rintro r s1 ⟨f1, f2⟩
    match r, f1, f2 with
    | none, f1, _ =>
      simp only [ok_pure]
      exact ⟨fun _ => f1 rfl, by simp⟩
    | some _, _, f2 =>
      obtain ⟨e1, segs1, t', rs', ft', hp1, inv1, bel1, hbits, hlen1, hle⟩ := f2 rfl
      simp only
      rw [ok_bind, ok_get, hp1]
      have hk1 := inv1.stk
      rw [hp1] at hk1
      obtain ⟨g1, gs1, rfl⟩ := hk1.cons_of
      obtain ⟨u1, u2, u3, u4, hk1⟩ := hk1
      have hmid : 2 * (t.base + t.len) + n2 = 2 * ((flat (g1 :: gs1)).length : Int) + n2 := by
        simp only [flat, List.length_append]; omega
      rw [hmid] at hq
      -- the new stack
      have fin : (∀ a ∈ rs'.head?, ∀ p, a.power = some p → p < q) →
          Ok (do modify fun s => { s with pending := { t' with power := some q } :: rs' }; pure (some ()) : M σ ε (Option Unit)) s1
            (fun r s' => (r = none → Broken h O s') ∧ (r.isSome → s'.err = s.err ∧
            ∃ segs', Inv h lt O segs' R s' ∧ s'.pending.length < 64 ∧
              Below O.length (2 * (flat segs').length + n2) 61 s'.pending)) := by
        intro hlt
        rw [ok_bind, ok_modify, ok_pure]
        have hb : Below O.length (2 * (flat (g1 :: gs1)).length + n2) 61 ({ t' with power := some q } :: rs') := by
          refine ⟨q, ft', 2 * t.base + t.len, rfl, by omega, hq, hbits, ?_⟩
          cases rs' with
          | nil => trivial
          | cons a rs' =>
            obtain ⟨p, x, y, z, _, w⟩ := bel1
            exact ⟨p, x, y, z, hlt a rfl p z, w⟩
        refine ⟨by simp, fun _ => ⟨e1, g1 :: gs1, ⟨⟨u1, u2, u3, u4, hk1⟩, inv1.mem, inv1.perm, inv1.order⟩, ?_, hb⟩⟩
        have := hb.height (by omega)
        simp only [List.length_cons] at this ⊢
        omega
      cases hrs : rs' with
      | nil =>
        simp only
        rw [hrs] at fin
        exact fin (by simp)
      | cons a rs'' =>
        rw [hrs] at bel1 fin hle
        obtain ⟨p, fa, la, x1, x2, x3, x4, x5⟩ := bel1
        have hpq : p ≤ q := hle a rfl p x1
        have hne : p ≠ q := by
          rintro rfl
          exact power_ne (by omega) x3 hq hbits
        simp only [x1]
        rw [ok_bind, ok_check]
        refine ⟨by simp only [decide_eq_true_eq]; omega, ?_⟩
        refine fin ?_
        intro a' ha p' hp'
        simp at ha
        subst ha
        rw [x1] at hp'
        cases hp'
        omega

end Verif.CPySort
