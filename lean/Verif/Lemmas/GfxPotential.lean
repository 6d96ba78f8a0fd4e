import Verif.Lemmas.GfxOverflow

/-!
# `gfx::timsort`: the sum of all the decrements

`half n` bounds what all merges of `n` elements can subtract from `minGallop`.
-/

namespace Verif.Gfx

open Verif.Spec CPySort

variable {σ ε α β : Type} {h : Host σ ε}

/-- The greatest sum of `min a b` over the merges of any merge tree with `n` elements. -/
def half (n : Nat) : Nat :=
  if n < 2 then 0 else half (n / 2) + half (n - n / 2) + n / 2
termination_by n

theorem half_small {n : Nat} (h : n < 2) : half n = 0 := by
  rw [half, if_pos h]

theorem half_even {k : Nat} (h : 0 < k) : half (2 * k) = half k + half k + k := by
  rw [half, if_neg (by omega), show 2 * k / 2 = k by omega, show 2 * k - k = k by omega]

theorem half_odd {k : Nat} (h : 0 < k) : half (2 * k + 1) = half k + half (k + 1) + k := by
  rw [half, if_neg (by omega), show (2 * k + 1) / 2 = k by omega, show 2 * k + 1 - k = k + 1 by omega]

theorem half_even' (k : Nat) : half (2 * k) = half k + half k + k := by
  rcases Nat.eq_zero_or_pos k with rfl | h
  · simp [half_small]
  · exact half_even h

theorem half_odd' (k : Nat) : half (2 * k + 1) = half k + half (k + 1) + k := by
  rcases Nat.eq_zero_or_pos k with rfl | h
  · simp [half_small]
  · exact half_odd h

theorem half_add : ∀ n a b, a + b = n → half a + half b + min a b ≤ half (a + b) := by
  intro n
  induction n using Nat.strongRecOn with
  | ind n ih =>
    intro a b e
    by_cases hs : a = 0 ∨ b = 0
    · rcases hs with rfl | rfl <;> simp [half_small]
    · by_cases h2 : a = 1 ∧ b = 1
      · obtain ⟨rfl, rfl⟩ := h2
        have e : half 2 = half 1 + half 1 + 1 := half_even' 1
        have e1 : half 1 = 0 := half_small (by omega)
        show half 1 + half 1 + min 1 1 ≤ half 2
        omega
      · rcases Nat.mod_two_eq_zero_or_one a with pa | pa <;> rcases Nat.mod_two_eq_zero_or_one b with pb | pb
        · obtain ⟨x, rfl⟩ : ∃ x, a = 2 * x := ⟨a / 2, by omega⟩
          obtain ⟨y, rfl⟩ : ∃ y, b = 2 * y := ⟨b / 2, by omega⟩
          have := ih (x + y) (by omega) x y rfl
          rw [show 2 * x + 2 * y = 2 * (x + y) by omega, half_even', half_even', half_even']
          omega
        · obtain ⟨x, rfl⟩ : ∃ x, a = 2 * x := ⟨a / 2, by omega⟩
          obtain ⟨y, rfl⟩ : ∃ y, b = 2 * y + 1 := ⟨b / 2, by omega⟩
          have h1 := ih (x + y) (by omega) x y rfl
          have h3 := ih (x + (y + 1)) (by omega) x (y + 1) rfl
          rw [show 2 * x + (2 * y + 1) = 2 * (x + y) + 1 by omega, half_odd', half_odd', half_even']
          rw [show x + (y + 1) = x + y + 1 by omega] at h3
          omega
        · obtain ⟨x, rfl⟩ : ∃ x, a = 2 * x + 1 := ⟨a / 2, by omega⟩
          obtain ⟨y, rfl⟩ : ∃ y, b = 2 * y := ⟨b / 2, by omega⟩
          have h1 := ih (x + y) (by omega) x y rfl
          have h3 := ih (x + 1 + y) (by omega) (x + 1) y rfl
          rw [show 2 * x + 1 + 2 * y = 2 * (x + y) + 1 by omega, half_odd', half_odd', half_even']
          rw [show x + 1 + y = x + y + 1 by omega] at h3
          omega
        · obtain ⟨x, rfl⟩ : ∃ x, a = 2 * x + 1 := ⟨a / 2, by omega⟩
          obtain ⟨y, rfl⟩ : ∃ y, b = 2 * y + 1 := ⟨b / 2, by omega⟩
          have h1 := ih (x + (y + 1)) (by omega) x (y + 1) rfl
          have h3 := ih (x + 1 + y) (by omega) (x + 1) y rfl
          rw [show 2 * x + 1 + (2 * y + 1) = 2 * (x + y + 1) by omega, half_odd', half_odd', half_even']
          rw [show x + 1 + y = x + y + 1 by omega] at h3
          rw [show x + (y + 1) = x + y + 1 by omega] at h1
          omega

theorem half_le_add (a b : Nat) : half a + half b + min a b ≤ half (a + b) := half_add _ a b rfl

theorem half_mono {a b : Nat} (h : a ≤ b) : half a ≤ half b := by
  obtain ⟨d, rfl⟩ := Nat.exists_eq_add_of_le h
  have := half_le_add a d
  omega

theorem half_pow : ∀ L, 2 * half (2 ^ L) = L * 2 ^ L := by
  intro L
  induction L with
  | zero => simp [half_small]
  | succ L ih =>
    rw [Nat.pow_succ, Nat.mul_comm (2 ^ L) 2, half_even']
    rw [Nat.add_mul, Nat.one_mul, ← Nat.mul_assoc, Nat.mul_comm L 2, Nat.mul_assoc, ← ih]
    omega

theorem half_bound {n : Nat} (h : n ≤ 2 ^ 27) : half n < 2 ^ 31 := by
  have h1 := half_mono h
  have h2 := half_pow 27
  omega

/-! ## Merges -/

/-- What a merge does to the registers. -/
structure Cost (L d : Int) (s s' : St σ ε) : Prop where
  al : s'.alloced = s.alloced
  pd : s'.pending = s.pending
  up : s'.minGallop ≤ 7
  lo : L - d ≤ s'.minGallop

theorem Cost.weaken {L d d' : Int} {s s' : St σ ε} (c : Cost L d s s') (hd : d ≤ d') : Cost L d' s s' :=
  ⟨c.al, c.pd, c.up, by have := c.lo; omega⟩

theorem Same.cost {L d : Int} {s s' : St σ ε} (e : Same s s') (hL : L ≤ s.minGallop) (hU : s.minGallop ≤ 7)
    (hd : 0 ≤ d) : Cost L d s s' := ⟨e.al, e.pd, by rw [e.mg]; exact hU, by rw [e.mg]; omega⟩

theorem Cost.before {L d : Int} {s s' s'' : St σ ε} (e : Same s s') (c : Cost L d s' s'') : Cost L d s s'' :=
  ⟨c.al.trans e.al, c.pd.trans e.pd, c.up, c.lo⟩

theorem wlp_mergeLo (ssa na ssb nb L : Int) (s : St σ ε) (hL : L ≤ 0) (hmg : L ≤ s.minGallop) (hU : s.minGallop ≤ 7)
    (hlo : -2 ^ 31 ≤ L - min na nb) (hn : na + nb ≤ 2 ^ 28) :
    Wlp (mergeLo h ssa na ssb nb) s (fun _ s' => Cost L (min na nb) s s') := by
  unfold mergeLo
  refine wlp_bind (wlp_check (fun hc => ?_))
  simp only [decide_eq_true_eq] at hc
  split
  · refine wlp_bind (((keeps_rotateLeft _ _).wlp _).mono ?_)
    intro _ s1 e1
    exact wlp_pure (e1.cost hmg hU (by omega))
  · split
    · refine wlp_bind (((keeps_rotateRight _ _).wlp _).mono ?_)
      intro _ s1 e1
      exact wlp_pure (e1.cost hmg hU (by omega))
    · refine wlp_bind (((keeps_toTmp _ _).wlp _).mono ?_)
      intro t s1 e1
      refine wlp_bind (((keeps_rdm _).wlp _).mono ?_)
      intro x s2 e2
      refine wlp_bind (((keeps_wr _ _).wlp _).mono ?_)
      intro _ s3 e3
      refine wlp_bind (wlp_get ?_)
      have e13 := (e1.trans e2).trans e3
      have hm := e13.mg
      simp only
      refine wlp_bind ((wlp_loOuter t _ _ _ L s3 hL (by omega) ?_ ?_ ?_ ?_ ?_).mono ?_)
      · first | omega | (simp only; omega)
      · first | omega | (simp only; omega)
      · first | omega | (simp only; omega)
      · first | omega | (simp only; omega)
      · first | omega | (simp only; omega)
      · intro q s4 ⟨e4, h4⟩
        obtain ⟨_, v, mg⟩ := q
        simp only at h4 ⊢
        refine wlp_bind (wlp_modify ?_)
        refine ((keeps_loEpilogue _ _).wlp _).mono ?_
        intro _ s5 e5
        have e14 := e13.trans e4
        refine ⟨e5.al.trans e14.al, e5.pd.trans e14.pd, ?_, ?_⟩
        · rw [e5.mg]; simp only; split <;> omega
        · rw [e5.mg]; simp only; split <;> omega

theorem wlp_mergeHi (ssa na ssb nb L : Int) (s : St σ ε) (hL : L ≤ 0) (hmg : L ≤ s.minGallop) (hU : s.minGallop ≤ 7)
    (hlo : -2 ^ 31 ≤ L - min na nb) (hn : na + nb ≤ 2 ^ 28) :
    Wlp (mergeHi h ssa na ssb nb) s (fun _ s' => Cost L (min na nb) s s') := by
  unfold mergeHi
  refine wlp_bind (wlp_check (fun hc => ?_))
  simp only [decide_eq_true_eq] at hc
  split
  · refine wlp_bind (((keeps_rotateLeft _ _).wlp _).mono ?_)
    intro _ s1 e1
    exact wlp_pure (e1.cost hmg hU (by omega))
  · split
    · refine wlp_bind (((keeps_rotateRight _ _).wlp _).mono ?_)
      intro _ s1 e1
      exact wlp_pure (e1.cost hmg hU (by omega))
    · refine wlp_bind (((keeps_toTmp _ _).wlp _).mono ?_)
      intro t s1 e1
      refine wlp_bind (((keeps_rdm _).wlp _).mono ?_)
      intro x s2 e2
      refine wlp_bind (((keeps_wr _ _).wlp _).mono ?_)
      intro _ s3 e3
      refine wlp_bind (wlp_get ?_)
      have e13 := (e1.trans e2).trans e3
      have hm := e13.mg
      simp only
      refine wlp_bind ((wlp_hiOuter t _ _ _ _ L s3 hL (by omega) ?_ ?_ ?_ ?_ ?_).mono ?_)
      · first | omega | (simp only; omega)
      · first | omega | (simp only; omega)
      · first | omega | (simp only; omega)
      · first | omega | (simp only; omega)
      · first | omega | (simp only; omega)
      · intro q s4 ⟨e4, h4⟩
        obtain ⟨_, v, mg⟩ := q
        simp only at h4 ⊢
        refine wlp_bind (wlp_modify ?_)
        refine ((keeps_hiEpilogue _ _).wlp _).mono ?_
        intro _ s5 e5
        have e14 := e13.trans e4
        refine ⟨e5.al.trans e14.al, e5.pd.trans e14.pd, ?_, ?_⟩
        · rw [e5.mg]; simp only; split <;> omega
        · rw [e5.mg]; simp only; split <;> omega

theorem wlp_mergeRuns (ssa na ssb nb L : Int) (s : St σ ε) (hL : L ≤ 0) (hmg : L ≤ s.minGallop)
    (hU : s.minGallop ≤ 7) (hlo : -2 ^ 31 ≤ L - min na nb) (hn : na + nb ≤ 2 ^ 28) (ha : 0 ≤ na) (hb : 0 ≤ nb) :
    Wlp (mergeRuns h ssa na ssb nb) s (fun _ s' => Cost L (min na nb) s s') := by
  unfold mergeRuns
  refine wlp_bind (((keeps_rdm _).wlp _).mono ?_)
  intro x s1 e1
  refine wlp_bind (wlp_get ?_)
  refine wlp_bind (((keeps_gallopRight _ _ _ _ _).wlp _).and ((res_gallopRight _ _ _ _ _).wlp _) |>.mono ?_)
  intro r s2 ⟨e2, hr⟩
  have e12 := e1.trans e2
  match r, hr with
  | none, _ => exact wlp_pure (e12.cost hmg hU (by omega))
  | some k, hr =>
    have hk := hr k rfl
    simp only
    split
    · exact wlp_pure (e12.cost hmg hU (by omega))
    · refine wlp_bind (((keeps_rdm _).wlp _).mono ?_)
      intro y s3 e3
      refine wlp_bind (wlp_get ?_)
      refine wlp_bind (((keeps_gallopLeft _ _ _ _ _).wlp _).and ((res_gallopLeft _ _ _ _ _).wlp _) |>.mono ?_)
      intro r s4 ⟨e4, hr4⟩
      have e14 := (e12.trans e3).trans e4
      have hm := e14.mg
      match r, hr4 with
      | none, _ => exact wlp_pure (e14.cost hmg hU (by omega))
      | some m, hr4 =>
        have hm4 := hr4 m rfl
        simp only
        split
        · exact wlp_pure (e14.cost hmg hU (by omega))
        · split
          · refine (wlp_mergeLo _ _ _ _ L s4 hL (by omega) (by omega) (by omega) (by omega)).mono ?_
            intro _ s5 c
            exact Cost.before e14 (c.weaken (by omega))
          · refine (wlp_mergeHi _ _ _ _ L s4 hL (by omega) (by omega) (by omega) (by omega)).mono ?_
            intro _ s5 c
            exact Cost.before e14 (c.weaken (by omega))

/-! ## The stack of runs -/

/-- The potential of the runs on the stack. -/
def phi : List Run → Nat
  | [] => 0
  | r :: rs => half r.len.toNat + phi rs

/-- The total length of the runs on the stack. -/
def total : List Run → Nat
  | [] => 0
  | r :: rs => r.len.toNat + total rs

theorem phi_le (rs : List Run) : phi rs ≤ half (total rs) := by
  induction rs with
  | nil => simp [phi]
  | cons r rs ih =>
    have := half_le_add r.len.toNat (total rs)
    simp only [phi, total]
    omega

/-- `minGallop` is at least minus the potential; the runs on the stack have at most `N` elements. -/
structure Inv (N : Nat) (s : St σ ε) : Prop where
  al : s.alloced = 0
  up : s.minGallop ≤ 7
  lo : -(phi s.pending : Int) ≤ s.minGallop
  tot : total s.pending ≤ N

theorem Inv.same {N : Nat} {s s' : St σ ε} (i : Inv N s) (e : Same s s') : Inv N s' :=
  ⟨e.al.trans i.al, by rw [e.mg]; exact i.up, by rw [e.mg, e.pd]; exact i.lo, by rw [e.pd]; exact i.tot⟩

theorem wlp_merge_step {N : Nat} (hN : N ≤ 2 ^ 27) (a b : Run) (pd : List Run) (s : St σ ε) (i : Inv N s)
    (ha : 0 < a.len) (hb : 0 < b.len)
    (hphi : phi s.pending + min a.len.toNat b.len.toNat ≤ phi pd) (htot : total pd = total s.pending)
    (hab : a.len.toNat + b.len.toNat ≤ total s.pending) :
    Wlp (do modify (fun s => { s with pending := pd }); mergeRuns h a.base a.len b.base b.len) s
      (fun _ s' => Inv N s') := by
  have h1 := phi_le pd
  have h2 := half_mono (Nat.le_trans (Nat.le_of_eq htot) i.tot)
  have h3 := half_bound hN
  have h4 := i.lo
  have h5 := i.up
  have h6 := i.tot
  refine wlp_bind (wlp_modify ?_)
  refine (wlp_mergeRuns a.base a.len b.base b.len (-(phi s.pending : Int)) { s with pending := pd } (by omega) h4 h5 (by omega) (by omega) (by omega)
    (by omega)).mono ?_
  intro _ s' c
  refine ⟨c.al.trans i.al, c.up, ?_, ?_⟩
  · have := c.lo
    rw [c.pd]
    simp only
    omega
  · rw [c.pd]
    simp only
    omega

theorem wlp_mergeAt {N : Nat} (hN : N ≤ 2 ^ 27) (third : Bool) (s : St σ ε) (i : Inv N s) :
    Wlp (mergeAt h third) s (fun _ s' => Inv N s') := by
  unfold mergeAt
  refine wlp_bind (wlp_get ?_)
  split
  · rename_i b a rest e
    refine wlp_bind (wlp_check (fun hc => ?_))
    simp only [decide_eq_true_eq] at hc
    have hh := half_le_add a.len.toNat b.len.toNat
    have hs : (a.len + b.len).toNat = a.len.toNat + b.len.toNat := by omega
    refine wlp_merge_step hN a b _ s i hc.1 hc.2.1 ?_ ?_ ?_
    · rw [e]; simp only [phi, hs]; omega
    · rw [e]; simp only [total, hs]; omega
    · rw [e]; simp only [total]; omega
  · rename_i c b a rest e
    refine wlp_bind (wlp_check (fun hc => ?_))
    simp only [decide_eq_true_eq] at hc
    have hh := half_le_add a.len.toNat b.len.toNat
    have hs : (a.len + b.len).toNat = a.len.toNat + b.len.toNat := by omega
    refine wlp_merge_step hN a b _ s i hc.1 hc.2.1 ?_ ?_ ?_
    · rw [e]; simp only [phi, hs]; omega
    · rw [e]; simp only [total, hs]; omega
    · rw [e]; simp only [total]; omega
  · exact wlp_error

theorem wlp_collapse {N : Nat} (hN : N ≤ 2 ^ 27) : ∀ f (s : St σ ε), Inv N s →
    Wlp (collapse h f) s (fun _ s' => Inv N s') := by
  intro f
  induction f with
  | zero => intro s _; unfold collapse; exact wlp_error
  | succ f ih =>
    intro s i
    unfold collapse
    refine wlp_bind (wlp_get ?_)
    generalize toMerge s.pending = q
    match q with
    | none => exact wlp_pure i
    | some third =>
      refine wlp_bind ((wlp_mergeAt hN third s i).mono ?_)
      intro r s' i'
      match r with
      | none => exact wlp_pure i'
      | some _ => exact ih s' i'

theorem wlp_forceCollapse {N : Nat} (hN : N ≤ 2 ^ 27) : ∀ f (s : St σ ε), Inv N s →
    Wlp (forceCollapse h f) s (fun _ s' => Inv N s') := by
  intro f
  induction f with
  | zero => intro s _; unfold forceCollapse; exact wlp_error
  | succ f ih =>
    intro s i
    unfold forceCollapse
    refine wlp_bind (wlp_get ?_)
    split
    · refine wlp_bind ((wlp_mergeAt hN _ s i).mono ?_)
      intro r s' i'
      match r with
      | none => exact wlp_pure i'
      | some _ => exact ih s' i'
    · refine wlp_bind ((wlp_mergeAt hN _ s i).mono ?_)
      intro r s' i'
      match r with
      | none => exact wlp_pure i'
      | some _ => exact ih s' i'
    · exact wlp_pure i

/-! ## The main loop -/

theorem res_ascend (lo nrem : Int) : ∀ f n, 0 ≤ n → n ≤ nrem →
    Res (ascend h lo nrem f n) (fun r => ∀ k, r = some k → 0 ≤ k ∧ k ≤ nrem) := by
  intro f
  induction f with
  | zero => intro n _ _; exact res_error
  | succ f ih =>
    intro n h0 h1
    unfold ascend
    split
    · refine res_bind (fun _ => res_bind (fun _ => res_bind (fun r => ?_)))
      match r with
      | none => exact res_pure (by simp)
      | some true => exact res_pure (by intro k hk; cases hk; exact ⟨h0, h1⟩)
      | some false => exact ih _ (by omega) (by omega)
    · exact res_pure (by intro k hk; cases hk; exact ⟨h0, h1⟩)

theorem res_descend (lo nrem : Int) : ∀ f n, 0 ≤ n → n ≤ nrem →
    Res (descend h lo nrem f n) (fun r => ∀ k, r = some k → 0 ≤ k ∧ k ≤ nrem) := by
  intro f
  induction f with
  | zero => intro n _ _; exact res_error
  | succ f ih =>
    intro n h0 h1
    unfold descend
    split
    · refine res_bind (fun _ => res_bind (fun _ => res_bind (fun r => ?_)))
      match r with
      | none => exact res_pure (by simp)
      | some false => exact res_pure (by intro k hk; cases hk; exact ⟨h0, h1⟩)
      | some true => exact ih _ (by omega) (by omega)
    · exact res_pure (by intro k hk; cases hk; exact ⟨h0, h1⟩)

theorem res_countRun (lo nrem : Int) :
    Res (countRun h lo nrem) (fun r => ∀ k, r = some k → 0 ≤ k ∧ k ≤ nrem) := by
  unfold countRun
  refine res_bind' (res_check _ _) (fun _ hc => ?_)
  simp only [decide_eq_true_eq] at hc
  split
  · exact res_pure (by intro k hk; cases hk; omega)
  · refine res_bind (fun _ => res_bind (fun _ => res_bind (fun r => ?_)))
    match r with
    | none => exact res_pure (by simp)
    | some true =>
      refine res_bind' (res_descend _ _ _ _ (by omega) (by omega)) (fun q hq => ?_)
      match q, hq with
      | none, _ => exact res_pure (by simp)
      | some n, hq => exact res_bind (fun _ => res_pure hq)
    | some false => exact res_ascend _ _ _ _ (by omega) (by omega)

/-- The shape the `do` notation gives to a conditional step followed by more code. -/
theorem wlp_ite_bind {c : Prop} [Decidable c] {m m' : M σ ε α} {k : α → M σ ε β} {s : St σ ε}
    {Q : β → St σ ε → Prop} (hm : Keeps m) (hm' : Keeps m') (hk : ∀ a s', Same s s' → Wlp (k a) s' Q) :
    Wlp (if c then m >>= k else m' >>= k) s Q := by
  split
  · exact wlp_bind ((hm.wlp s).mono hk)
  · exact wlp_bind ((hm'.wlp s).mono hk)

theorem wlp_nextRun {N : Nat} (mr : Nat) (lo nrem : Int) (hN : lo + nrem = N) (hN' : N ≤ 2 ^ 27) (h0 : 0 ≤ lo)
    (s : St σ ε) (i : Inv lo.toNat s) :
    Wlp (nextRun h mr lo nrem) s
      (fun r s' => s'.alloced = 0 ∧ ∀ n, r = some n → 0 ≤ n ∧ n ≤ nrem ∧ Inv (lo + n).toNat s') := by
  unfold nextRun
  refine wlp_bind (((keeps_countRun _ _).wlp _).and ((res_countRun _ _).wlp _) |>.mono ?_)
  intro r s1 ⟨e1, hr⟩
  match r, hr with
  | none, _ => exact wlp_pure ⟨(i.same e1).al, by simp⟩
  | some n, hr =>
    have hn := hr n rfl
    simp only
    generalize hf : (if nrem ≤ (mr : Int) then nrem else (mr : Int)) = force
    have hforce : 0 ≤ force ∧ force ≤ nrem := by subst hf; split <;> omega
    refine wlp_ite_bind (keeps_binarySort _ _ _) (keeps_pure _) ?_
    intro q s2 e2
    have i2 := i.same (e1.trans e2)
    match q with
    | none => exact wlp_pure ⟨i2.al, by simp⟩
    | some _ =>
      simp only
      generalize hm : (if n < (mr : Int) then force else n) = m
      have hmm : 0 ≤ m ∧ m ≤ nrem := by subst hm; split <;> omega
      refine wlp_bind (wlp_modify ?_)
      refine wlp_bind (wlp_get ?_)
      have i3 : Inv (lo + m).toNat
          { s2 with pending := { base := lo, len := m, power := none } :: s2.pending } := by
        refine ⟨i2.al, i2.up, ?_, ?_⟩
        · have := i2.lo
          simp only [phi]
          omega
        · have := i2.tot
          simp only [total]
          omega
      refine wlp_bind ((wlp_collapse (N := (lo + m).toNat) (by omega) _ _ i3).mono ?_)
      intro r s4 i4
      match r with
      | none => exact wlp_pure ⟨i4.al, by simp⟩
      | some _ =>
        refine wlp_pure ⟨i4.al, ?_⟩
        intro k hk
        cases hk
        exact ⟨hmm.1, hmm.2, i4⟩

theorem wlp_runLoop {N : Nat} (mr : Nat) (hN' : N ≤ 2 ^ 27) : ∀ f (lo nrem : Int), lo + nrem = N → 0 ≤ lo →
    0 ≤ nrem → ∀ s : St σ ε, Inv lo.toNat s →
    Wlp (runLoop h mr f lo nrem) s (fun r s' => s'.alloced = 0 ∧ (r ≠ none → Inv N s')) := by
  intro f
  induction f with
  | zero => intro lo nrem _ _ _ s _; unfold runLoop; exact wlp_error
  | succ f ih =>
    intro lo nrem hN h0 h1 s i
    unfold runLoop
    refine wlp_bind ((wlp_nextRun mr lo nrem hN hN' h0 s i).mono ?_)
    intro r s' ⟨ha, hr⟩
    match r, hr with
    | none, _ => exact wlp_pure ⟨ha, by simp⟩
    | some n, hr =>
      obtain ⟨h2, h3, h4⟩ := hr n rfl
      simp only
      split
      · refine wlp_pure ⟨ha, fun _ => ?_⟩
        rw [show (lo + n).toNat = N by omega] at h4
        exact h4
      · exact ih _ _ (by omega) (by omega) (by omega) s' h4

theorem wlp_sortM (N : Nat) (hN : N ≤ 2 ^ 27) (s : St σ ε) (i : Inv 0 s) :
    Wlp (sortM h N) s (fun _ s' => s'.alloced = 0) := by
  unfold sortM
  split
  · exact wlp_pure i.al
  · split
    · refine wlp_bind (((keeps_countRun _ _).wlp _).mono ?_)
      intro r s1 e1
      match r with
      | none => exact wlp_pure (i.same e1).al
      | some k =>
        refine ((keeps_binarySort _ _ _).wlp _).mono ?_
        intro _ s2 e2
        exact (i.same (e1.trans e2)).al
    · refine wlp_bind ((wlp_runLoop (N := N) _ hN _ 0 N (by omega) (by omega) (by omega) s i).mono ?_)
      intro r s1 ⟨ha, hr⟩
      match r, hr with
      | none, _ => exact wlp_pure ha
      | some _, hr =>
        have i1 := hr (by simp)
        refine wlp_bind (wlp_get ?_)
        refine wlp_bind ((wlp_forceCollapse hN _ s1 i1).mono ?_)
        intro r s2 i2
        match r with
        | none => exact wlp_pure i2.al
        | some _ =>
          refine wlp_bind (wlp_get ?_)
          split
          · exact wlp_pure i2.al
          · exact wlp_error

/-- `minGallop` never leaves the range of `int` for up to 2^27 elements. -/
theorem timsort_noOverflow (lt : ε → ε → Bool) (l l' : List ε) (b : Bool) (hn : l.length ≤ 2 ^ 27)
    (e : timsort lt l = .ok (l', b)) : b = false := by
  unfold timsort at e
  split at e
  · rename_i u s hs
    have := wlp_sortM l.length hn _ ⟨rfl, by simp, by simp [phi], by simp [total]⟩ _ _ hs
    cases e
    simp [this]
  · cases e

end Verif.Gfx
