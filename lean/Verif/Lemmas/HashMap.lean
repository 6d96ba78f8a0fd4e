import Verif.Model.HashMap
import Mathlib.Data.Finset.Card
import Mathlib.Data.Nat.ModEq
import Mathlib.Tactic.Ring

namespace Verif.HashMap

variable {κ α : Type}

/-- The bucket at position `i`. -/
def sl (B : List Bucket) (i : Nat) : Bucket := B.getD i ⟨0, 0⟩

theorem rd_ok {B : List Bucket} {i : Nat} (h : i < B.length) : rd B i = .ok (sl B i) := by
  unfold rd sl
  rw [List.getElem?_eq_getElem h]
  simp [h]

theorem sl_set {B : List Bucket} {i j : Nat} {b : Bucket} (h : i < B.length) :
    sl (B.set i b) j = if i = j then b else sl B j := by
  unfold sl
  rw [List.getD_eq_getElem?_getD, List.getD_eq_getElem?_getD, List.getElem?_set]
  split
  · rename_i e; subst e; simp [h]
  · rfl

theorem sl_set_same {B : List Bucket} {i : Nat} {b : Bucket} (h : i < B.length) : sl (B.set i b) i = b := by
  rw [sl_set h, if_pos rfl]

theorem sl_set_ne {B : List Bucket} {i j : Nat} {b : Bucket} (hn : i ≠ j) : sl (B.set i b) j = sl B j := by
  unfold sl
  rw [List.getD_eq_getElem?_getD, List.getD_eq_getElem?_getD, List.getElem?_set, if_neg hn]

/-! ## Positions on the ring -/

theorem next_lt {n i : Nat} (h : i < n) : next n i < n := by
  unfold next
  split <;> omega

theorem next_inj {n i j : Nat} (hi : i < n) (hj : j < n) (h : next n i = next n j) : i = j := by
  unfold next at h
  split at h <;> split at h <;> omega

theorem next_ne {n i : Nat} (hn : 2 ≤ n) (h : i < n) : next n i ≠ i := by
  unfold next
  split <;> omega

theorem next_mod {n : Nat} (hn : 0 < n) (a : Nat) : next n (a % n) = (a + 1) % n := by
  have hr := Nat.mod_lt a hn
  have : (a + 1) % n = (a % n + 1) % n := by rw [Nat.mod_add_mod]
  rw [this]
  unfold next
  split
  · rename_i e; rw [e, Nat.mod_self]
  · rename_i e
    exact (Nat.mod_eq_of_lt (Nat.lt_of_le_of_ne hr e)).symm

theorem pos_inj {n h i j : Nat} (hi : i < n) (hj : j < n) (e : (h + i) % n = (h + j) % n) : i = j := by
  have : i % n = j % n := Nat.ModEq.add_left_cancel' h e
  rwa [Nat.mod_eq_of_lt hi, Nat.mod_eq_of_lt hj] at this

/-- Every position is some way ahead of every other. -/
theorem exists_offset {n p q : Nat} (hp : p < n) (hq : q < n) : ∃ m, m < n ∧ (p + m) % n = q := by
  by_cases h : p ≤ q
  · exact ⟨q - p, by omega, by rw [Nat.add_sub_cancel' h]; exact Nat.mod_eq_of_lt hq⟩
  · refine ⟨q + n - p, by omega, ?_⟩
    rw [show p + (q + n - p) = q + n by omega, Nat.add_mod_right]
    exact Nat.mod_eq_of_lt hq

/-! ## The invariant -/

/-- A bucket at position `q` belongs to its value: distance from home and fingerprint are right. -/
def Snd (H F : κ → Nat) (n : Nat) (vs : List (κ × α)) (b : Bucket) (q : Nat) : Prop :=
  ∃ e d, vs[b.idx]? = some e ∧ d < n ∧ (H e.1 + d) % n = q ∧ b.df = (d + 1) * 256 + F e.1

/-- Behind a bucket comes one that is at most one step further from home, or is at home, or none. -/
def Loc (n : Nat) (B : List Bucket) : Prop :=
  ∀ p, p < n → 512 ≤ (sl B (next n p)).df → (sl B (next n p)).df ≤ (sl B p).df + 256

structure Inv (H F : κ → Nat) (n : Nat) (vs : List (κ × α)) (B : List Bucket) : Prop where
  len : B.length = n
  zero : ∀ q, q < n → (sl B q).df = 0 → (sl B q).idx = 0
  sound : ∀ q, q < n → (sl B q).df ≠ 0 → Snd H F n vs (sl B q) q
  full : ∀ v, v < vs.length → ∃ q, q < n ∧ (sl B q).df ≠ 0 ∧ (sl B q).idx = v
  uniq : ∀ q, q < n → ∀ r, r < n → (sl B q).df ≠ 0 → (sl B r).df ≠ 0 → (sl B q).idx = (sl B r).idx → q = r
  loc : Loc n B

theorem one_less {d f x y : Nat} (hd : (d + 1 + 1) * 256 + f ≤ x) (h2 : x ≤ y + 256) : (d + 1) * 256 + f ≤ y := by
  refine Nat.le_of_add_le_add_right (b := 256) (Nat.le_trans (Nat.le_of_eq ?_) (Nat.le_trans hd h2))
  ring

theorem loc_chain {n : Nat} {B : List Bucket} (hl : Loc n B) (hn : 0 < n) (h f : Nat) : ∀ d,
    (d + 1) * 256 + f ≤ (sl B ((h + d) % n)).df → ∀ j, j ≤ d → (j + 1) * 256 + f ≤ (sl B ((h + j) % n)).df := by
  intro d
  induction d with
  | zero => intro hd j hj; obtain rfl : j = 0 := by omega
            exact hd
  | succ d ih =>
    intro hd j hj
    by_cases e : j = d + 1
    · subst e; exact hd
    · refine ih ?_ j (by omega)
      have := hl ((h + d) % n) (Nat.mod_lt _ hn)
      rw [next_mod hn] at this
      have e1 : h + d + 1 = h + (d + 1) := rfl
      rw [e1] at this
      generalize (sl B ((h + (d + 1)) % n)).df = x at this hd
      generalize (sl B ((h + d) % n)).df = y at this ⊢
      have h2 := this (by clear ih this; omega)
      exact one_less hd h2

/-- So many filled positions in a row, so many values. -/
theorem count_run {n h c : Nat} {B : List Bucket} (S : Finset Nat) (hc : c ≤ n)
    (uniq : ∀ q, q < n → ∀ r, r < n → (sl B q).df ≠ 0 → (sl B r).df ≠ 0 → (sl B q).idx = (sl B r).idx → q = r)
    (hS : ∀ q, q < n → (sl B q).df ≠ 0 → (sl B q).idx ∈ S) (hrun : ∀ j, j < c → (sl B ((h + j) % n)).df ≠ 0) : c ≤ S.card := by
  rcases Nat.eq_zero_or_pos n with hn | hn
  · omega
  have := Finset.card_le_card_of_injOn (s := Finset.range c) (t := S) (fun j => (sl B ((h + j) % n)).idx) ?_ ?_
  · simpa using this
  · intro j hj
    simp only [Finset.coe_range, Set.mem_Iio] at hj
    exact hS _ (Nat.mod_lt _ hn) (hrun j hj)
  · intro i hi j hj e
    simp only [Finset.coe_range, Set.mem_Iio] at hi hj
    exact pos_inj (by omega) (by omega) (uniq _ (Nat.mod_lt _ hn) _ (Nat.mod_lt _ hn) (hrun i hi) (hrun j hj) e)

/-- A filled bucket at distance `d`: all positions from its home on are filled. -/
theorem run_to {n h d f : Nat} {B : List Bucket} (hl : Loc n B) (hn : 0 < n)
    (hd : (sl B ((h + d) % n)).df = (d + 1) * 256 + f) : ∀ j, j ≤ d → (sl B ((h + j) % n)).df ≠ 0 := by
  intro j hj
  have := loc_chain hl hn h f d (by omega) j hj
  omega

variable {H F : κ → Nat} {n : Nat} {vs : List (κ × α)} {B : List Bucket}

theorem Inv.idx_mem (h : Inv H F n vs B) : ∀ q, q < n → (sl B q).df ≠ 0 → (sl B q).idx ∈ Finset.range vs.length := by
  intro q hq hd
  obtain ⟨e, d, he, _⟩ := h.sound q hq hd
  rw [Finset.mem_range]
  exact (List.getElem?_eq_some_iff.1 he).1

/-- There is an empty bucket not further from any home than there are values. -/
theorem Inv.gap (h : Inv H F n vs B) (hn : vs.length < n) (p : Nat) :
    ∃ m, m ≤ vs.length ∧ (sl B ((p + m) % n)).df = 0 ∧ ∀ j, j < m → (sl B ((p + j) % n)).df ≠ 0 := by
  have hex : ∃ m, m < vs.length + 1 ∧ (sl B ((p + m) % n)).df = 0 := by
    rcases Classical.em (∃ m, m < vs.length + 1 ∧ (sl B ((p + m) % n)).df = 0) with h1 | h1
    · exact h1
    · exfalso
      have := count_run (h := p) (c := vs.length + 1) (Finset.range vs.length) (by omega) h.uniq h.idx_mem
        (fun j hj e => h1 ⟨j, hj, e⟩)
      rw [Finset.card_range] at this
      omega
  clear hn
  obtain ⟨m, hm, he⟩ := hex
  induction m using Nat.strongRecOn with
  | ind m ih =>
    rcases Classical.em (∃ j, j < m ∧ (sl B ((p + j) % n)).df = 0) with ⟨j, hj, ej⟩ | h1
    · exact ih j hj (by omega) ej
    · exact ⟨m, by omega, he, fun j hj e => h1 ⟨j, hj, e⟩⟩

/-! ## Placing a bucket -/

/-- A table with the bucket `b` on its way to position `p`. -/
structure Pend (H F : κ → Nat) (n : Nat) (vs : List (κ × α)) (B : List Bucket) (b : Bucket) (p : Nat) : Prop where
  len : B.length = n
  lt : p < n
  zero : ∀ q, q < n → (sl B q).df = 0 → (sl B q).idx = 0
  sound : ∀ q, q < n → (sl B q).df ≠ 0 → Snd H F n vs (sl B q) q
  soundb : Snd H F n vs b p
  full : ∀ v, v < vs.length → v = b.idx ∨ ∃ q, q < n ∧ (sl B q).df ≠ 0 ∧ (sl B q).idx = v
  uniq : ∀ q, q < n → ∀ r, r < n → (sl B q).df ≠ 0 → (sl B r).df ≠ 0 → (sl B q).idx = (sl B r).idx → q = r
  fresh : ∀ q, q < n → (sl B q).df ≠ 0 → (sl B q).idx ≠ b.idx
  loc : Loc n B
  over : (sl B p).df ≤ b.df
  prev : ∀ q, q < n → next n q = p → 512 ≤ b.df → b.df ≤ (sl B q).df + 256

theorem snd_pos {b : Bucket} {q : Nat} (h : Snd H F n vs b q) : 256 ≤ b.df := by
  obtain ⟨e, d, _, _, _, h⟩ := h
  omega

theorem Pend.idx_mem {b : Bucket} {p : Nat} (h : Pend H F n vs B b p) : ∀ q, q < n → (sl B q).df ≠ 0 →
    (sl B q).idx ∈ (Finset.range vs.length).erase b.idx := by
  intro q hq hd
  obtain ⟨e, d, he, _⟩ := h.sound q hq hd
  rw [Finset.mem_erase, Finset.mem_range]
  exact ⟨h.fresh q hq hd, (List.getElem?_eq_some_iff.1 he).1⟩

theorem Pend.card {b : Bucket} {p : Nat} (h : Pend H F n vs B b p) :
    ((Finset.range vs.length).erase b.idx).card = vs.length - 1 := by
  obtain ⟨e, d, he, _⟩ := h.soundb
  rw [Finset.card_erase_of_mem (Finset.mem_range.2 (List.getElem?_eq_some_iff.1 he).1), Finset.card_range]

theorem Pend.step {b : Bucket} {p : Nat} (h : Pend H F n vs B b p) (hF : ∀ k, F k < 256) (hn : 2 ≤ n) (hvn : vs.length ≤ n)
    (hv : vs.length < 2 ^ 24) (hne : (sl B p).df ≠ 0) :
    Pend H F n vs (B.set p b) { sl B p with df := inc (sl B p).df } (next n p) := by
  have hp := h.lt
  have hpl : p < B.length := by rw [h.len]; exact hp
  have hnp := next_lt hp
  have hnn := next_ne hn hp
  have hb := snd_pos h.soundb
  obtain ⟨e, d, he, hd, hpos, hdf⟩ := h.sound p hp hne
  have hcnt : d + 1 ≤ vs.length - 1 := by
    have := count_run (h := H e.1) (c := d + 1) _ (by omega) h.uniq h.idx_mem
      (fun j hj => run_to h.loc (by omega) (by rw [hpos]; exact hdf) j (by omega))
    rwa [h.card] at this
  have hinc : inc (sl B p).df = (sl B p).df + 256 := by
    unfold inc
    have := hF e.1
    rw [Nat.mod_eq_of_lt]
    omega
  constructor
  · rw [List.length_set]; exact h.len
  · exact hnp
  · intro q hq hz
    rw [sl_set hpl] at hz ⊢
    split at hz
    · omega
    · rename_i hpq; rw [if_neg hpq]; exact h.zero q hq hz
  · intro q hq hz
    rw [sl_set hpl] at hz ⊢
    split
    · rename_i e'; subst e'; exact h.soundb
    · rename_i hpq; rw [if_neg hpq] at hz; exact h.sound q hq hz
  · refine ⟨e, d + 1, he, by omega, ?_, ?_⟩
    · rw [← hpos, next_mod (by omega)]; rfl
    · show inc (sl B p).df = _
      rw [hinc, hdf]; omega
  · intro v hv
    rcases h.full v hv with rfl | ⟨q, hq, h1, h2⟩
    · exact Or.inr ⟨p, hp, by rw [sl_set_same hpl]; omega, by rw [sl_set_same hpl]⟩
    · by_cases hqp : p = q
      · subst hqp; exact Or.inl h2.symm
      · exact Or.inr ⟨q, hq, by rw [sl_set_ne hqp]; exact h1, by rw [sl_set_ne hqp]; exact h2⟩
  · intro q hq r hr h1 h2 h3
    rw [sl_set hpl] at h1 h3
    rw [sl_set hpl] at h2 h3
    split at h1
    · rename_i e1
      split at h2
      · rename_i e2; omega
      · rename_i e2; rw [if_pos e1, if_neg e2] at h3; exact absurd h3.symm (h.fresh r hr h2)
    · rename_i e1
      split at h2
      · rename_i e2; rw [if_neg e1, if_pos e2] at h3; exact absurd h3 (h.fresh q hq h1)
      · rename_i e2; rw [if_neg e1, if_neg e2] at h3; exact h.uniq q hq r hr h1 h2 h3
  · intro q hq h1 h2
    rw [sl_set hpl] at h1 h2
    split at h1
    · rename_i e1; rw [if_pos e1] at h2; exact h.fresh p hp hne h2.symm
    · rename_i e1; rw [if_neg e1] at h2; exact e1 (h.uniq p hp q hq hne h1 h2.symm)
  · intro q hq h1
    have hl := h.loc q hq
    rw [sl_set hpl] at h1 ⊢
    by_cases e1 : p = next n q
    · rw [if_pos e1] at h1 ⊢
      have : p ≠ q := by rintro rfl; exact next_ne hn hq e1.symm
      rw [sl_set_ne this]
      exact h.prev q hq e1.symm h1
    · rw [if_neg e1] at h1 ⊢
      have := hl h1
      by_cases e2 : p = q
      · subst e2; rw [sl_set_same hpl]; have := h.over; omega
      · rw [sl_set_ne e2]; exact this
  · rw [sl_set_ne (Ne.symm hnn)]
    simp only [hinc]
    by_cases h1 : 512 ≤ (sl B (next n p)).df
    · exact h.loc p hp h1
    · omega
  · intro q hq e1 _
    obtain rfl := next_inj hq hp e1
    rw [sl_set_same hpl]
    simp only [hinc]
    have := h.over
    omega

theorem Pend.last {b : Bucket} {p : Nat} (h : Pend H F n vs B b p) (hn : 2 ≤ n) (he : (sl B p).df = 0) :
    Inv H F n vs (B.set p b) := by
  have hp := h.lt
  have hpl : p < B.length := by rw [h.len]; exact hp
  have hb := snd_pos h.soundb
  constructor
  · rw [List.length_set]; exact h.len
  · intro q hq hz
    rw [sl_set hpl] at hz ⊢
    split at hz
    · omega
    · rename_i hpq; rw [if_neg hpq]; exact h.zero q hq hz
  · intro q hq hz
    rw [sl_set hpl] at hz ⊢
    split
    · rename_i e'; subst e'; exact h.soundb
    · rename_i hpq; rw [if_neg hpq] at hz; exact h.sound q hq hz
  · intro v hv
    rcases h.full v hv with rfl | ⟨q, hq, h1, h2⟩
    · exact ⟨p, hp, by rw [sl_set_same hpl]; omega, by rw [sl_set_same hpl]⟩
    · have hqp : p ≠ q := by rintro rfl; exact h1 he
      exact ⟨q, hq, by rw [sl_set_ne hqp]; exact h1, by rw [sl_set_ne hqp]; exact h2⟩
  · intro q hq r hr h1 h2 h3
    rw [sl_set hpl] at h1 h3
    rw [sl_set hpl] at h2 h3
    split at h1
    · rename_i e1
      split at h2
      · rename_i e2; omega
      · rename_i e2; rw [if_pos e1, if_neg e2] at h3; exact absurd h3.symm (h.fresh r hr h2)
    · rename_i e1
      split at h2
      · rename_i e2; rw [if_neg e1, if_pos e2] at h3; exact absurd h3 (h.fresh q hq h1)
      · rename_i e2; rw [if_neg e1, if_neg e2] at h3; exact h.uniq q hq r hr h1 h2 h3
  · intro q hq h1
    have hl := h.loc q hq
    rw [sl_set hpl] at h1 ⊢
    by_cases e1 : p = next n q
    · rw [if_pos e1] at h1 ⊢
      have : p ≠ q := by rintro rfl; exact next_ne hn hq e1.symm
      rw [sl_set_ne this]
      exact h.prev q hq e1.symm h1
    · rw [if_neg e1] at h1 ⊢
      have := hl h1
      by_cases e2 : p = q
      · subst e2; omega
      · rw [sl_set_ne e2]; exact this

theorem place_ok (hF : ∀ k, F k < 256) (hn : 2 ≤ n) (hvn : vs.length ≤ n) (hv : vs.length < 2 ^ 24) : ∀ (f m : Nat) (B : List Bucket) (b : Bucket) (p : Nat),
    Pend H F n vs B b p → m < n → (sl B ((p + m) % n)).df = 0 → m < f → ∃ B', place f B b p = .ok B' ∧ Inv H F n vs B' := by
  intro f
  induction f with
  | zero => intro m B b p _ _ _ h; omega
  | succ f ih =>
    intro m B b p h hm he hf
    have hpl : p < B.length := by rw [h.len]; exact h.lt
    unfold place
    rw [rd_ok hpl]
    simp only
    by_cases hz : (sl B p).df = 0
    · rw [if_neg (by simpa using hz)]
      exact ⟨_, rfl, h.last hn hz⟩
    · rw [if_pos hz]
      have hm0 : m ≠ 0 := by
        rintro rfl
        rw [Nat.add_zero, Nat.mod_eq_of_lt h.lt] at he
        exact hz he
      rw [h.len]
      have hpos : (next n p + (m - 1)) % n = (p + m) % n := by
        conv_lhs => rw [show p = p % n from (Nat.mod_eq_of_lt h.lt).symm, next_mod (by omega), Nat.mod_add_mod]
        congr 1
        omega
      refine ih (m - 1) _ _ _ (h.step hF hn hvn hv hz) (by omega) ?_ (by omega)
      rw [hpos, sl_set_ne]
      · exact he
      · intro e
        have : (p + 0) % n = (p + m) % n := by rw [Nat.add_zero, Nat.mod_eq_of_lt h.lt]; exact e
        have := pos_inj (by omega) hm this
        omega

end Verif.HashMap
