import Verif.Lemmas.HashProbe
import Mathlib.Tactic.IntervalCases

/-!
# Insertion and growth
-/

namespace Verif.HashMap

variable {κ α : Type} {H F : κ → Nat} {n : Nat} {vs : List (κ × α)} {B : List Bucket}

theorem snd_append {b : Bucket} {q : Nat} (h : Snd H F n vs b q) (ws : List (κ × α)) : Snd H F n (vs ++ ws) b q := by
  obtain ⟨e, d, he, h1⟩ := h
  exact ⟨e, d, by rw [List.getElem?_append_left (List.getElem?_eq_some_iff.1 he).1]; exact he, h1⟩

/-- A new value at the point the probing found. -/
theorem Inv.pend (h : Inv H F n vs B) (hF : ∀ k, F k < 256) (hn : 0 < n) (e : κ × α) {s : Nat} (hs : s < n)
    (ha : ∀ j, j < s → pr (F e.1) j ≤ (sl B ((H e.1 + j) % n)).df) (hb : (sl B ((H e.1 + s) % n)).df ≤ pr (F e.1) s) :
    Pend H F n (vs ++ [e]) B ⟨pr (F e.1) s, vs.length⟩ ((H e.1 + s) % n) := by
  constructor
  · exact h.len
  · exact Nat.mod_lt _ hn
  · exact h.zero
  · intro q hq hz
    exact snd_append (h.sound q hq hz) _
  · exact ⟨e, s, by simp, hs, rfl, rfl⟩
  · intro v hv
    rw [List.length_append, List.length_singleton] at hv
    by_cases hvl : v = vs.length
    · exact .inl hvl
    · exact .inr (h.full v (by omega))
  · exact h.uniq
  · intro q hq hz
    have := h.idx_mem q hq hz
    rw [Finset.mem_range] at this
    exact Nat.ne_of_lt this
  · exact h.loc
  · exact hb
  · intro q hq hnq hlt
    cases s with
    | zero => exact absurd hlt (by
        show ¬ 512 ≤ pr (F e.1) 0
        have := hF e.1
        unfold pr
        omega)
    | succ s =>
      have : q = (H e.1 + s) % n := next_inj hq (Nat.mod_lt _ hn) (by rw [next_pos hn, hnq])
      subst this
      have := ha s (by omega)
      show pr (F e.1) (s + 1) ≤ _
      unfold pr at this ⊢
      rw [show (s + 1 + 1) * 256 = (s + 1) * 256 + 256 by ring]
      generalize (s + 1) * 256 = y at this ⊢
      generalize (sl B ((H e.1 + s) % n)).df = x at this ⊢
      omega

theorem Inv.insert (h : Inv H F n vs B) (hF : ∀ k, F k < 256) (hn : 2 ≤ n) (hl : vs.length < n) (hsz : vs.length + 1 < 2 ^ 24)
    (e : κ × α) {s : Nat} (hs : s ≤ vs.length) (ha : ∀ j, j < s → pr (F e.1) j ≤ (sl B ((H e.1 + j) % n)).df)
    (hb : (sl B ((H e.1 + s) % n)).df ≤ pr (F e.1) s) :
    ∃ B', place (B.length + 1) B ⟨pr (F e.1) s, vs.length⟩ ((H e.1 + s) % n) = .ok B' ∧ Inv H F n (vs ++ [e]) B' := by
  obtain ⟨m, hm, he, _⟩ := h.gap hl ((H e.1 + s) % n)
  refine place_ok hF hn (by simp; omega) (by simpa using hsz) _ m B _ _ (h.pend hF (by omega) e (by omega) ha hb) (by omega) he ?_
  rw [h.len]
  omega

theorem zero_pos {k : κ} (hH : H k < n) : (H k + 0) % n = H k := Nat.mod_eq_of_lt hH

/-! ## The table's hash -/

/-- Home position and fingerprint for `2^b` buckets. -/
def home (hash : κ → Nat) (b : Nat) (k : κ) : Nat := idxOf (64 - b) (hash k)

def fp (hash : κ → Nat) (k : κ) : Nat := hash k % 256

theorem fp_lt (hash : κ → Nat) (k : κ) : fp hash k < 256 := Nat.mod_lt _ (by decide)

theorem fpOf_eq (hash : κ → Nat) (k : κ) : fpOf (hash k) = pr (fp hash k) 0 := by
  unfold fpOf pr fp
  omega

theorem home_lt (hash : κ → Nat) {b : Nat} (hb : b ≤ 64) (k : κ) : home hash b k < 2 ^ b := by
  unfold home idxOf
  refine Nat.lt_of_le_of_lt (Nat.mod_le _ _) ?_
  rw [Nat.div_lt_iff_lt_mul (Nat.pow_pos (by decide)), ← Nat.pow_add, Nat.add_sub_cancel' hb]
  exact Nat.mod_lt _ (Nat.pow_pos (by decide))

theorem numBuckets_eq {b : Nat} (hb : b ≤ 32) : numBuckets (64 - b) = 2 ^ b := by
  unfold numBuckets
  rw [show 64 - (64 - b) = b by omega]
  exact Nat.min_eq_right (Nat.pow_le_pow_right (by decide) hb)

theorem sl_replicate (m i : Nat) : sl (List.replicate m ⟨0, 0⟩) i = ⟨0, 0⟩ := by
  unfold sl
  rw [List.getD_eq_getElem?_getD, List.getElem?_replicate]
  split <;> rfl

theorem inv_nil (H F : κ → Nat) (n : Nat) : Inv H F n ([] : List (κ × α)) (List.replicate n ⟨0, 0⟩) := by
  constructor
  · exact List.length_replicate
  · intro q _ _; rw [sl_replicate]
  · intro q _ h; rw [sl_replicate] at h; exact absurd rfl h
  · intro v h; exact absurd h (Nat.not_lt_zero _)
  · intro q _ r _ h; rw [sl_replicate] at h; exact absurd rfl h
  · intro p _ h; rw [sl_replicate] at h; exact absurd h (by decide)

theorem fill_ok (hash : κ → Nat) {b : Nat} (hb1 : 1 ≤ b) (hb : b ≤ 32) : ∀ (rest vs : List (κ × α)) (B : List Bucket),
    Inv (home hash b) (fp hash) (2 ^ b) vs B → vs.length + rest.length < 2 ^ b → vs.length + rest.length < 2 ^ 24 →
    ∃ B', fill hash (64 - b) rest vs.length B = .ok B' ∧ Inv (home hash b) (fp hash) (2 ^ b) (vs ++ rest) B' := by
  have hn : 2 ≤ 2 ^ b := by
    calc 2 = 2 ^ 1 := rfl
      _ ≤ 2 ^ b := Nat.pow_le_pow_right (by decide) hb1
  intro rest
  induction rest with
  | nil => intro vs B h _ _; exact ⟨B, rfl, by rwa [List.append_nil]⟩
  | cons e rest ih =>
    intro vs B h hl hs
    rw [List.length_cons] at hl hs
    have hF := fp_lt hash
    have hH := home_lt hash (show b ≤ 64 by omega) e.1
    obtain ⟨m, hm, hme, _⟩ := h.gap (by omega) (home hash b e.1)
    obtain ⟨s, h1, _, h3, h4, h5⟩ := nextWhileLess_ok (f := fp hash e.1) (m := m) h.len (by omega) (hF e.1) (by omega)
      (by rw [hme]; exact Nat.zero_le _) (B.length + 1) 0 (by omega) (by rw [h.len]; omega)
    rw [zero_pos hH, ← fpOf_eq] at h1
    obtain ⟨B1, h6, h7⟩ := h.insert hF hn (by omega) (by omega) e (s := s) (by omega)
      (fun j hj => Nat.le_of_lt (h5 j (Nat.zero_le _) hj)) h4
    unfold fill
    unfold home at h1 h6
    rw [h1]
    simp only
    rw [h6]
    simp only
    obtain ⟨B2, h8, h9⟩ := ih (vs ++ [e]) B1 h7 (by simp; omega) (by simp; omega)
    rw [List.length_append, List.length_singleton] at h8
    exact ⟨B2, h8, by rwa [List.append_assoc] at h9⟩

theorem capacity_lt {b : Nat} (hb : b ≤ 25) : capacity (2 ^ b) < 2 ^ b := by
  have hne : 2 ^ b ≠ 2 ^ 32 := by
    intro e
    have := Nat.pow_right_injective (Nat.le_refl 2) e
    omega
  unfold capacity
  rw [if_neg hne, Nat.div_lt_iff_lt_mul (by decide)]
  exact Nat.mul_lt_mul_of_pos_left (by decide) (Nat.pow_pos (by decide))

theorem capacity_grows {b : Nat} (h2 : 2 ≤ b) (hb : b ≤ 24) : capacity (2 ^ b) + 1 ≤ capacity (2 ^ (b + 1)) := by
  interval_cases b <;> decide

theorem capacity_ne {b : Nat} (hb : b ≤ 25) : capacity (2 ^ b) ≠ 2 ^ 32 := by
  have h1 := capacity_lt hb
  have h2 : 2 ^ b ≤ 2 ^ 25 := Nat.pow_le_pow_right (by decide) hb
  have h3 : (2 : Nat) ^ 25 ≤ 2 ^ 32 := by decide
  intro e
  exact Nat.lt_irrefl _ (Nat.lt_of_lt_of_le (e ▸ h1) (Nat.le_trans h2 h3))

theorem capacity_25 : 2 ^ 24 ≤ capacity (2 ^ 25) := by decide

/-- A table in good order with `2^b` buckets. -/
structure TInv (hash : κ → Nat) (b : Nat) (t : Table κ α) : Prop where
  lo : 2 ≤ b
  hi : b ≤ 25
  sh : t.shifts = 64 - b
  cap : t.maxCap = capacity (2 ^ b)
  nodup : (t.values.map (·.1)).Nodup
  inv : Inv (home hash b) (fp hash) (2 ^ b) t.values t.buckets
  le : t.values.length ≤ t.maxCap
  small : t.values.length + 1 < 2 ^ 24

variable {hash : κ → Nat} {b : Nat} {t : Table κ α}

theorem TInv.lt (h : TInv hash b t) : t.values.length < 2 ^ b :=
  Nat.lt_of_le_of_lt (h.cap ▸ h.le) (capacity_lt h.hi)

theorem TInv.four (h : TInv hash b t) : 4 ≤ 2 ^ b := by
  calc 4 = 2 ^ 2 := rfl
    _ ≤ 2 ^ b := Nat.pow_le_pow_right (by decide) h.lo

/-- The value is in the vector, its bucket still to be put. -/
theorem settle_ok (h : TInv hash b t) (e : κ × α) (hk : ∀ e' ∈ t.values, e'.1 ≠ e.1) (hsz : t.values.length + 2 < 2 ^ 24) {s : Nat}
    (hs : s ≤ t.values.length) (ha : ∀ j, j < s → pr (fp hash e.1) j ≤ (sl t.buckets ((home hash b e.1 + j) % 2 ^ b)).df)
    (hb : (sl t.buckets ((home hash b e.1 + s) % 2 ^ b)).df ≤ pr (fp hash e.1) s) :
    ∃ b' t', settle hash { t with values := t.values ++ [e] } (pr (fp hash e.1) s) ((home hash b e.1 + s) % 2 ^ b) = .ok t' t.values.length ∧
      TInv hash b' t' ∧ t'.values = t.values ++ [e] := by
  have hlt := h.lt
  have h4 := h.four
  have hF := fp_lt hash
  have hnd : ((t.values ++ [e]).map (·.1)).Nodup := by
    rw [List.map_append, List.nodup_append]
    refine ⟨h.nodup, by simp, ?_⟩
    intro a ha b hb
    simp only [List.map_cons, List.map_nil, List.mem_singleton] at hb
    rw [List.mem_map] at ha
    obtain ⟨e', he', rfl⟩ := ha
    rw [hb]
    exact hk e' he'
  unfold settle
  simp only [List.length_append, List.length_singleton, Nat.add_sub_cancel]
  by_cases hcap : t.values.length + 1 > t.maxCap
  · rw [if_pos hcap]
    have hb24 : b ≤ 24 := by
      rcases Nat.lt_or_ge 24 b with hgt | hle
      · exfalso
        obtain rfl : b = 25 := by have := h.hi; omega
        have := capacity_25
        rw [h.cap] at hcap
        omega
      · exact hle
    unfold increaseSize
    rw [if_neg (by simp only; rw [h.cap]; exact capacity_ne h.hi)]
    simp only
    have hs1 : t.shifts - 1 = 64 - (b + 1) := by rw [h.sh]; omega
    have hle1 : t.values.length + 1 ≤ capacity (2 ^ (b + 1)) :=
      Nat.le_trans (Nat.succ_le_succ (h.cap ▸ h.le)) (capacity_grows h.lo hb24)
    have hlt1 := capacity_lt (show b + 1 ≤ 25 by omega)
    obtain ⟨B', h1, h2⟩ := fill_ok hash (b := b + 1) (by omega) (by omega) (t.values ++ [e]) [] _ (inv_nil _ _ _)
      (by simp only [List.length_nil, List.length_append, List.length_singleton]; omega)
      (by simp only [List.length_nil, List.length_append, List.length_singleton]; omega)
    rw [hs1]
    unfold cleared
    rw [numBuckets_eq (show b + 1 ≤ 32 by omega)]
    rw [List.length_nil] at h1
    rw [h1]
    refine ⟨b + 1, _, rfl, ⟨?_, ?_, rfl, rfl, hnd, h2, ?_, ?_⟩, rfl⟩
    · have := h.lo; omega
    · omega
    · simpa using hle1
    · simp only [List.length_append, List.length_singleton]; omega
  · rw [if_neg hcap]
    obtain ⟨B', h1, h2⟩ := h.inv.insert hF (by omega) hlt (by omega) e hs ha hb
    rw [h1]
    refine ⟨b, _, rfl, ⟨h.lo, h.hi, h.sh, h.cap, hnd, h2, ?_, ?_⟩, rfl⟩
    · simp only [List.length_append, List.length_singleton]; omega
    · simp only [List.length_append, List.length_singleton]; omega

theorem mem_get {vs : List (κ × α)} {k : κ} (h : ¬ ∀ e ∈ vs, e.1 ≠ k) : ∃ (v : Nat) (a : α), vs[v]? = some (k, a) := by
  simp only [not_forall, not_not] at h
  obtain ⟨e, he, rfl⟩ := h
  obtain ⟨v, hv⟩ := List.getElem?_of_mem he
  exact ⟨v, e.2, hv⟩

variable [DecidableEq κ]

/-- Probing for a key that is there. -/
theorem TInv.hit (h : TInv hash b t) {k : κ} {v : Nat} {a : α} (hv : t.values[v]? = some (k, a)) {ks : List (κ × α)}
    (hx : Ext t.values ks) :
    tryLoop ks t.buckets k (t.buckets.length + 1) (fpOf (hash k)) (idxOf t.shifts (hash k)) = .ok (.inl v) := by
  obtain ⟨d, hd⟩ := h.inv.find hv
  have := tryLoop_hit h.inv h.nodup (fp_lt hash) hx hd h.small (t.buckets.length + 1) 0 (Nat.zero_le _)
    (by rw [h.inv.len]; have := hd.lt; omega)
  rw [zero_pos (home_lt hash (by have := h.hi; omega) k), ← fpOf_eq] at this
  rw [h.sh]
  exact this

/-- Probing for a key that is not there. -/
theorem TInv.miss (h : TInv hash b t) {k : κ} (hk : ∀ e ∈ t.values, e.1 ≠ k) {ks : List (κ × α)} (hx : Ext t.values ks) :
    ∃ s, tryLoop ks t.buckets k (t.buckets.length + 1) (fpOf (hash k)) (idxOf t.shifts (hash k)) =
        .ok (.inr (pr (fp hash k) s, (home hash b k + s) % 2 ^ b)) ∧ s ≤ t.values.length ∧
      (sl t.buckets ((home hash b k + s) % 2 ^ b)).df < pr (fp hash k) s ∧
      ∀ i, i < s → pr (fp hash k) i ≤ (sl t.buckets ((home hash b k + i) % 2 ^ b)).df := by
  obtain ⟨m, hm, he, _⟩ := h.inv.gap h.lt (home hash b k)
  have hlt := h.lt
  obtain ⟨s, h1, _, h3, h4, h5⟩ := tryLoop_miss h.inv (fp_lt hash) hx hk (by have := h.four; omega) (m := m)
    (by have := h.small; omega) (by rw [he]; unfold pr; omega) (t.buckets.length + 1) 0 (Nat.zero_le _)
    (by rw [h.inv.len]; omega)
  rw [zero_pos (home_lt hash (by have := h.hi; omega) k), ← fpOf_eq] at h1
  rw [h.sh]
  exact ⟨s, h1, by omega, h4, fun i hi => h5 i (Nat.zero_le _) hi⟩

theorem tryEmplace_hit (h : TInv hash b t) {k : κ} {v : Nat} {a : α} (hv : t.values[v]? = some (k, a)) (x : α) :
    tryEmplace hash t k x = .ok t (v, false) := by
  unfold tryEmplace
  rw [h.hit hv (ext_self _)]

theorem tryEmplace_miss (h : TInv hash b t) {k : κ} (hk : ∀ e ∈ t.values, e.1 ≠ k) (hsz : t.values.length + 2 < 2 ^ 24) (x : α) :
    ∃ b' t', tryEmplace hash t k x = .ok t' (t.values.length, true) ∧ TInv hash b' t' ∧ t'.values = t.values ++ [(k, x)] := by
  obtain ⟨s, h1, h2, h3, h4⟩ := h.miss hk (ext_self _)
  obtain ⟨b', t', h5, h6, h7⟩ := settle_ok h (k, x) hk hsz h2 h4 (Nat.le_of_lt h3)
  refine ⟨b', t', ?_, h6, h7⟩
  unfold tryEmplace
  rw [h1]
  simp only
  rw [h5]

theorem emplace_hit (h : TInv hash b t) {k : κ} {v : Nat} {a : α} (hv : t.values[v]? = some (k, a)) (x : α) :
    emplace hash t k x = .ok t (v, false) := by
  unfold emplace
  rw [emplaceLoop_eq, h.hit hv (ext_append _ _)]
  simp only [List.dropLast_concat]

theorem emplace_miss (h : TInv hash b t) {k : κ} (hk : ∀ e ∈ t.values, e.1 ≠ k) (hsz : t.values.length + 2 < 2 ^ 24) (x : α) :
    ∃ b' t', emplace hash t k x = .ok t' (t.values.length, true) ∧ TInv hash b' t' ∧ t'.values = t.values ++ [(k, x)] := by
  obtain ⟨s, h1, h2, h3, h4⟩ := h.miss hk (ext_append _ [(k, x)])
  obtain ⟨b', t', h5, h6, h7⟩ := settle_ok h (k, x) hk hsz h2 h4 (Nat.le_of_lt h3)
  refine ⟨b', t', ?_, h6, h7⟩
  unfold emplace
  rw [emplaceLoop_eq, h1]
  simp only
  rw [h5]

/-! ## Lookup -/

theorem findStep_hit (h : TInv hash b t) {k : κ} {v d : Nat} (ha : At (home hash b) (fp hash) (2 ^ b) t.values t.buckets k v d)
    (rest : Except UB (Option Nat)) : findStep t.values t.buckets k (pr (fp hash k) d) ((home hash b k + d) % 2 ^ b) rest = .ok (some v) := by
  unfold findStep
  rw [rd_ok (by rw [h.inv.len]; exact Nat.mod_lt _ (by have := h.four; omega))]
  simp only
  rw [if_pos ha.df.symm, ha.here (ext_self _)]
  simp only [if_true, ha.idx]

theorem findStep_pass (h : TInv hash b t) {k : κ} {v d j : Nat} (ha : At (home hash b) (fp hash) (2 ^ b) t.values t.buckets k v d)
    (hj : j < d) (rest : Except UB (Option Nat)) :
    findStep t.values t.buckets k (pr (fp hash k) j) ((home hash b k + j) % 2 ^ b) rest = rest := by
  unfold findStep
  rw [rd_ok (by rw [h.inv.len]; exact Nat.mod_lt _ (by have := h.four; omega))]
  simp only
  split
  · obtain ⟨e, h1, h2⟩ := ha.other h.inv h.nodup (ext_self _) hj
    rw [h1]
    simp only [if_neg h2]
  · rfl

theorem findStep_miss (h : TInv hash b t) {k : κ} (hk : ∀ e ∈ t.values, e.1 ≠ k) (j : Nat) (rest : Except UB (Option Nat)) :
    findStep t.values t.buckets k (pr (fp hash k) j) ((home hash b k + j) % 2 ^ b) rest = rest := by
  have hp : (home hash b k + j) % 2 ^ b < 2 ^ b := Nat.mod_lt _ (by have := h.four; omega)
  unfold findStep
  rw [rd_ok (by rw [h.inv.len]; exact hp)]
  simp only
  split
  · rename_i heq
    obtain ⟨e, he, hke⟩ := h.inv.keyAt (ext_self _) hp (by rw [← heq]; unfold pr; omega)
    have hek : k ≠ e.1 := fun e' => hk e (List.mem_of_getElem? he) e'.symm
    rw [hke]
    simp only [if_neg hek]
  · rfl

theorem find_eq (h : TInv hash b t) (k : κ) (hne : t.values ≠ []) : find hash t k =
    findStep t.values t.buckets k (pr (fp hash k) 0) ((home hash b k + 0) % 2 ^ b)
      (findStep t.values t.buckets k (pr (fp hash k) 1) ((home hash b k + 1) % 2 ^ b)
        (findLoop t.values t.buckets k (t.buckets.length + 1) (pr (fp hash k) 2) ((home hash b k + 2) % 2 ^ b))) := by
  have hn : 0 < 2 ^ b := by have := h.four; omega
  unfold find
  have : t.values.isEmpty = false := by
    cases hv : t.values with
    | nil => exact absurd hv hne
    | cons _ _ => rfl
  rw [this]
  simp only [Bool.false_eq_true, if_false]
  rw [fpOf_eq, h.sh, ← inc_pr (fp_lt hash k) (j := 0) (by decide), ← inc_pr (fp_lt hash k) (j := 1) (by decide),
    ← inc_pr (fp_lt hash k) (j := 0) (by decide), ← next_pos hn (home hash b k) 1, ← next_pos hn (home hash b k) 0,
    zero_pos (home_lt hash (by have := h.hi; omega) k), h.inv.len]
  rfl

theorem find_hit (h : TInv hash b t) {k : κ} {v : Nat} {a : α} (hv : t.values[v]? = some (k, a)) : find hash t k = .ok (some v) := by
  obtain ⟨d, hd⟩ := h.inv.find hv
  rw [find_eq h k (by intro e; rw [e] at hv; exact absurd hv (by simp))]
  by_cases h0 : d = 0
  · subst h0; exact findStep_hit h hd _
  rw [findStep_pass h hd (by omega)]
  by_cases h1 : d = 1
  · subst h1; exact findStep_hit h hd _
  rw [findStep_pass h hd (by omega), findLoop_eq,
    tryLoop_hit h.inv h.nodup (fp_lt hash) (ext_self _) hd h.small _ 2 (by omega) (by rw [h.inv.len]; have := hd.lt; omega)]
  rfl

theorem find_miss (h : TInv hash b t) {k : κ} (hk : ∀ e ∈ t.values, e.1 ≠ k) : find hash t k = .ok none := by
  by_cases hne : t.values = []
  · unfold find
    rw [hne]
    rfl
  have hn : 0 < 2 ^ b := by have := h.four; omega
  rw [find_eq h k hne, findStep_miss h hk, findStep_miss h hk, findLoop_eq]
  obtain ⟨m, hm, he, _⟩ := h.inv.gap h.lt (home hash b k)
  have hlt := h.lt
  have h4 := h.four
  have hstop : (sl t.buckets ((home hash b k + m) % 2 ^ b)).df < pr (fp hash k) m := by rw [he]; unfold pr; omega
  obtain ⟨s, h1, _⟩ := tryLoop_miss h.inv (fp_lt hash) (ext_self _) hk hn (m := max m 2)
    (by have := h.small; omega) (ahead h.inv.loc hn _ _ hstop _ (Nat.le_max_left _ _)) (t.buckets.length + 1) 2 (Nat.le_max_right _ _)
    (by rw [h.inv.len]; omega)
  rw [h1]
  rfl

end Verif.HashMap
