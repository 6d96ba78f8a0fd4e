import Verif.Lemmas.HashMap

/-!
# Probing
-/

namespace Verif.HashMap

variable {κ α : Type} {H F : κ → Nat} {n : Nat} {vs ks : List (κ × α)} {B : List Bucket}

/-- What is compared with the bucket `j` steps from home. -/
def pr (f j : Nat) : Nat := (j + 1) * 256 + f

theorem inc_pr {f j : Nat} (hf : f < 256) (hj : j + 2 < 2 ^ 24) : inc (pr f j) = pr f (j + 1) := by
  unfold inc pr
  rw [Nat.mod_eq_of_lt (by omega)]
  omega

theorem next_pos (hn : 0 < n) (h j : Nat) : next n ((h + j) % n) = (h + (j + 1)) % n := next_mod hn _

/-- Once the probe is ahead it stays ahead. -/
theorem ahead (hl : Loc n B) (hn : 0 < n) (h f : Nat) {s : Nat} (hs : (sl B ((h + s) % n)).df < pr f s) :
    ∀ j, s ≤ j → (sl B ((h + j) % n)).df < pr f j := by
  intro j hj
  induction j with
  | zero => obtain rfl : s = 0 := by omega
            exact hs
  | succ j ih =>
    by_cases e : s = j + 1
    · subst e; exact hs
    · have h1 := ih (by omega)
      have h2 := hl ((h + j) % n) (Nat.mod_lt _ hn)
      rw [next_pos hn] at h2
      unfold pr at h1 ⊢
      generalize (sl B ((h + (j + 1)) % n)).df = x at h2 ⊢
      generalize (sl B ((h + j) % n)).df = y at h1 h2
      by_cases hx : 512 ≤ x
      · have := h2 hx
        clear h2 ih
        rw [show (j + 1 + 1) * 256 = (j + 1) * 256 + 256 by ring]
        omega
      · have : 512 ≤ (j + 1 + 1) * 256 := by
          calc 512 = 2 * 256 := rfl
            _ ≤ _ := Nat.mul_le_mul_right _ (by omega)
        omega

theorem nextWhileLess_ok (hlen : B.length = n) (hn : 0 < n) {h f m : Nat} (hf : f < 256) (hm : m + 1 < 2 ^ 24)
    (hstop : (sl B ((h + m) % n)).df ≤ pr f m) : ∀ (fuel j : Nat), j ≤ m → m - j < fuel →
    ∃ s, nextWhileLess B fuel (pr f j) ((h + j) % n) = .ok (pr f s, (h + s) % n) ∧ j ≤ s ∧ s ≤ m ∧
      (sl B ((h + s) % n)).df ≤ pr f s ∧ ∀ i, j ≤ i → i < s → pr f i < (sl B ((h + i) % n)).df := by
  intro fuel
  induction fuel with
  | zero => intro j _ h; omega
  | succ fuel ih =>
    intro j hj hfu
    have hp := Nat.mod_lt (h + j) hn
    unfold nextWhileLess
    rw [rd_ok (by rw [hlen]; exact hp)]
    simp only
    by_cases hlt : pr f j < (sl B ((h + j) % n)).df
    · have hne : j ≠ m := by
        rintro rfl
        exact absurd hstop (Nat.not_le.2 hlt)
      rw [if_pos hlt, inc_pr hf (by omega), hlen, next_pos hn]
      obtain ⟨s, h1, h2, h3, h4, h5⟩ := ih (j + 1) (by omega) (by omega)
      refine ⟨s, h1, by omega, h3, h4, ?_⟩
      intro i hi his
      by_cases e : i = j
      · subst e; exact hlt
      · exact h5 i (by omega) his
    · rw [if_neg hlt]
      exact ⟨j, rfl, Nat.le_refl _, hj, Nat.not_lt.1 hlt, fun i h1 h2 => absurd h2 (by omega)⟩

/-- Where a key of the table is. -/
structure At (H F : κ → Nat) (n : Nat) (vs : List (κ × α)) (B : List Bucket) (k : κ) (v d : Nat) : Prop where
  key : ∃ a, vs[v]? = some (k, a)
  lt : d < n
  len : d + 1 ≤ vs.length
  df : (sl B ((H k + d) % n)).df = pr (F k) d
  idx : (sl B ((H k + d) % n)).idx = v
  before : ∀ j, j ≤ d → pr (F k) j ≤ (sl B ((H k + j) % n)).df
  only : ∀ j, j < d → (sl B ((H k + j) % n)).idx ≠ v

theorem Inv.find (h : Inv H F n vs B) {k : κ} {v : Nat} {a : α} (hv : vs[v]? = some (k, a)) : ∃ d, At H F n vs B k v d := by
  obtain ⟨q, hq, h1, h2⟩ := h.full v (List.getElem?_eq_some_iff.1 hv).1
  obtain ⟨e, d, he, hd, hp, hdf⟩ := h.sound q hq h1
  rw [h2, hv] at he
  cases he
  simp only at hp hdf
  subst hp
  have hn : 0 < n := by omega
  have hrun := run_to h.loc hn hdf
  refine ⟨d, ⟨a, hv⟩, hd, ?_, hdf, h2, ?_, ?_⟩
  · have := count_run (h := H k) (c := d + 1) _ (by omega) h.uniq h.idx_mem (fun j hj => hrun j (by omega))
    rwa [Finset.card_range] at this
  · exact loc_chain h.loc hn (H k) (F k) d (Nat.le_of_eq hdf.symm)
  · intro j hj e
    have := h.uniq _ (Nat.mod_lt _ hn) _ hq (hrun j (by omega)) h1 (by rw [e, h2])
    have := pos_inj (by omega) hd this
    omega

/-- Values that agree with `vs` as far as `vs` goes. -/
def Ext (vs ks : List (κ × α)) : Prop := ∀ i, i < vs.length → ks[i]? = vs[i]?

theorem ext_self (vs : List (κ × α)) : Ext vs vs := fun _ _ => rfl

theorem ext_append (vs ws : List (κ × α)) : Ext vs (vs ++ ws) := fun _ h => List.getElem?_append_left h

theorem Inv.keyAt (h : Inv H F n vs B) (hx : Ext vs ks) {q : Nat} (hq : q < n) (hd : (sl B q).df ≠ 0) :
    ∃ e, vs[(sl B q).idx]? = some e ∧ keyAt ks (sl B q).idx = .ok e.1 := by
  obtain ⟨e, d, he, _⟩ := h.sound q hq hd
  refine ⟨e, he, ?_⟩
  unfold HashMap.keyAt
  rw [hx _ (List.getElem?_eq_some_iff.1 he).1, he]

theorem nodup_idx {vs : List (κ × α)} (hk : (vs.map (·.1)).Nodup) {i j : Nat} {e e' : κ × α} (hi : vs[i]? = some e)
    (hj : vs[j]? = some e') (he : e.1 = e'.1) : i = j := by
  have h1 : (vs.map (·.1))[i]? = some e.1 := by rw [List.getElem?_map, hi]; rfl
  have h2 : (vs.map (·.1))[j]? = some e.1 := by rw [List.getElem?_map, hj, he]; rfl
  have hi' := (List.getElem?_eq_some_iff.1 h1)
  have hj' := (List.getElem?_eq_some_iff.1 h2)
  obtain ⟨a, ha⟩ := hi'
  obtain ⟨b, hb⟩ := hj'
  exact (List.Nodup.getElem_inj_iff hk).1 (ha.trans hb.symm)

variable [DecidableEq κ]

/-- At an earlier position there is another key, or the probe is smaller. -/
theorem At.other (h : Inv H F n vs B) (hk : (vs.map (·.1)).Nodup) (hx : Ext vs ks) {k : κ} {v d j : Nat} (ha : At H F n vs B k v d)
    (hj : j < d) : ∃ e, keyAt ks (sl B ((H k + j) % n)).idx = .ok e ∧ k ≠ e := by
  have hn : 0 < n := by have := ha.lt; omega
  have hb := ha.before j (by omega)
  obtain ⟨e, he, hke⟩ := h.keyAt hx (Nat.mod_lt (H k + j) hn) (by unfold pr at hb; omega)
  refine ⟨e.1, hke, ?_⟩
  intro hek
  obtain ⟨a, hv⟩ := ha.key
  exact ha.only j hj (nodup_idx hk he hv hek.symm)

theorem At.here {k : κ} {v d : Nat} (hx : Ext vs ks) (ha : At H F n vs B k v d) :
    keyAt ks (sl B ((H k + d) % n)).idx = .ok k := by
  obtain ⟨a, hv⟩ := ha.key
  unfold HashMap.keyAt
  rw [ha.idx, hx _ (List.getElem?_eq_some_iff.1 hv).1, hv]

theorem tryLoop_hit (h : Inv H F n vs B) (hk : (vs.map (·.1)).Nodup) (hF : ∀ k, F k < 256) (hx : Ext vs ks) {k : κ} {v d : Nat}
    (ha : At H F n vs B k v d) (hsz : vs.length + 1 < 2 ^ 24) : ∀ (fuel j : Nat), j ≤ d → d - j < fuel →
    tryLoop ks B k fuel (pr (F k) j) ((H k + j) % n) = .ok (.inl v) := by
  have hn : 0 < n := by have := ha.lt; omega
  have hdl := ha.len
  intro fuel
  induction fuel with
  | zero => intro j _ h; omega
  | succ fuel ih =>
    intro j hj hfu
    have hp := Nat.mod_lt (H k + j) hn
    unfold tryLoop
    rw [rd_ok (by rw [h.len]; exact hp)]
    simp only
    by_cases e : j = d
    · subst e
      rw [if_pos ha.df.symm, ha.here hx]
      simp only [if_true, ha.idx]
    · have hb := ha.before j hj
      have hih := ih (j + 1) (by omega) (by omega)
      rw [← next_pos hn, ← inc_pr (hF k) (by omega), ← h.len] at hih
      by_cases heq : pr (F k) j = (sl B ((H k + j) % n)).df
      · obtain ⟨e', hke, hne⟩ := ha.other h hk hx (show j < d by omega)
        rw [if_pos heq, hke]
        simp only [if_neg hne]
        rw [h.len] at hih ⊢
        exact hih
      · rw [if_neg heq, if_neg (Nat.not_lt.2 hb)]
        rw [h.len] at hih ⊢
        exact hih

theorem tryLoop_miss (h : Inv H F n vs B) (hF : ∀ k, F k < 256) (hx : Ext vs ks) {k : κ} (hk : ∀ e ∈ vs, e.1 ≠ k) (hn : 0 < n) {m : Nat}
    (hm : m + 1 < 2 ^ 24) (hstop : (sl B ((H k + m) % n)).df < pr (F k) m) : ∀ (fuel j : Nat), j ≤ m → m - j < fuel →
    ∃ s, tryLoop ks B k fuel (pr (F k) j) ((H k + j) % n) = .ok (.inr (pr (F k) s, (H k + s) % n)) ∧ j ≤ s ∧ s ≤ m ∧
      (sl B ((H k + s) % n)).df < pr (F k) s ∧ ∀ i, j ≤ i → i < s → pr (F k) i ≤ (sl B ((H k + i) % n)).df := by
  intro fuel
  induction fuel with
  | zero => intro j _ h; omega
  | succ fuel ih =>
    intro j hj hfu
    have hp := Nat.mod_lt (H k + j) hn
    unfold tryLoop
    rw [rd_ok (by rw [h.len]; exact hp)]
    simp only
    by_cases hgt : (sl B ((H k + j) % n)).df < pr (F k) j
    · rw [if_neg (by intro e; rw [e] at hgt; exact Nat.lt_irrefl _ hgt), if_pos hgt]
      exact ⟨j, rfl, Nat.le_refl _, hj, hgt, fun i h1 h2 => absurd h2 (by omega)⟩
    · have hne : j ≠ m := by
        rintro rfl
        exact hgt hstop
      obtain ⟨s, h1, h2, h3, h4, h5⟩ := ih (j + 1) (by omega) (by omega)
      rw [← next_pos hn, ← inc_pr (hF k) (by omega)] at h1
      refine ⟨s, ?_, by omega, h3, h4, ?_⟩
      · by_cases heq : pr (F k) j = (sl B ((H k + j) % n)).df
        · obtain ⟨e, he, hke⟩ := h.keyAt hx hp (by rw [← heq]; unfold pr; omega)
          have hek : k ≠ e.1 := fun e' => hk e (List.mem_of_getElem? he) e'.symm
          rw [if_pos heq, hke]
          simp only [if_neg hek]
          rw [h.len]
          exact h1
        · rw [if_neg heq, if_neg hgt, h.len]
          exact h1
      · intro i hi his
        by_cases e : i = j
        · subst e; exact Nat.not_lt.1 hgt
        · exact h5 i (by omega) his

omit [DecidableEq κ] in
theorem except_map_ok {ε β γ : Type} (f : β → γ) (x : β) : Except.map f (.ok x : Except ε β) = .ok (f x) := rfl

theorem emplaceLoop_eq (ks : List (κ × α)) (B : List Bucket) (k : κ) : ∀ f df i, emplaceLoop ks B k f df i = tryLoop ks B k f df i := by
  intro f
  induction f with
  | zero => intro df i; rfl
  | succ f ih =>
    intro df i
    unfold emplaceLoop tryLoop
    cases rd B i with
    | error u => rfl
    | ok b =>
      simp only [ih]
      by_cases h1 : df = b.df
      · rw [if_pos (by omega), if_pos h1, if_pos h1]
      · rw [if_neg h1, if_neg h1]
        by_cases h2 : df ≤ b.df
        · rw [if_pos h2, if_neg (by omega)]
        · rw [if_neg h2, if_pos (by omega)]

/-- What a lookup tells about the insertion point. -/
def hit : Nat ⊕ (Nat × Nat) → Option Nat
  | .inl v => some v
  | .inr _ => none

theorem findLoop_eq (ks : List (κ × α)) (B : List Bucket) (k : κ) : ∀ f df i,
    findLoop ks B k f df i = Except.map hit (tryLoop ks B k f df i) := by
  intro f
  induction f with
  | zero => intro df i; rfl
  | succ f ih =>
    intro df i
    unfold findLoop tryLoop
    cases rd B i with
    | error u => rfl
    | ok b =>
      simp only [ih]
      by_cases h1 : df = b.df
      · rw [if_pos h1, if_pos h1]
        cases keyAt ks b.idx with
        | error u => rfl
        | ok k' =>
          simp only
          split <;> rfl
      · rw [if_neg h1, if_neg h1]
        split <;> rfl

theorem eraseLoop_hit (h : Inv H F n vs B) (hk : (vs.map (·.1)).Nodup) (hF : ∀ k, F k < 256) {k : κ} {v d : Nat}
    (ha : At H F n vs B k v d) (hsz : vs.length + 1 < 2 ^ 24) : ∀ (fuel j : Nat), j ≤ d → d - j < fuel →
    (sl B ((H k + j) % n)).df ≤ pr (F k) j → eraseLoop vs B k fuel (pr (F k) j) ((H k + j) % n) = .ok (pr (F k) d, (H k + d) % n) := by
  have hn : 0 < n := by have := ha.lt; omega
  have hdl := ha.len
  intro fuel
  induction fuel with
  | zero => intro j _ h; omega
  | succ fuel ih =>
    intro j hj hfu hle
    have hp := Nat.mod_lt (H k + j) hn
    have heq : pr (F k) j = (sl B ((H k + j) % n)).df := Nat.le_antisymm (ha.before j hj) hle
    unfold eraseLoop
    rw [rd_ok (by rw [h.len]; exact hp)]
    simp only
    rw [if_pos heq]
    by_cases e : j = d
    · subst e
      rw [ha.here (ext_self _)]
      simp only [if_true]
    · obtain ⟨e', hke, hne⟩ := ha.other h hk (ext_self _) (show j < d by omega)
      rw [hke]
      simp only [if_neg hne]
      rw [h.len, inc_pr (hF k) (by omega), next_pos hn]
      refine ih (j + 1) (by omega) (by omega) ?_
      have h2 := h.loc ((H k + j) % n) hp
      rw [next_pos hn, ← heq] at h2
      unfold pr at h2 ⊢
      generalize (sl B ((H k + (j + 1)) % n)).df = x at h2 ⊢
      rw [show (j + 1 + 1) * 256 = (j + 1) * 256 + 256 by ring]
      by_cases hx : 512 ≤ x
      · have := h2 hx
        omega
      · have : 256 ≤ (j + 1) * 256 := Nat.le_mul_of_pos_left _ (by omega)
        omega

theorem eraseLoop_miss (h : Inv H F n vs B) (hF : ∀ k, F k < 256) {k : κ} (hk : ∀ e ∈ vs, e.1 ≠ k) (hn : 0 < n) {m : Nat}
    (hm : m + 1 < 2 ^ 24) (hstop : (sl B ((H k + m) % n)).df < pr (F k) m) : ∀ (fuel j : Nat), j ≤ m → m - j < fuel →
    ∃ s, eraseLoop vs B k fuel (pr (F k) j) ((H k + j) % n) = .ok (pr (F k) s, (H k + s) % n) ∧
      pr (F k) s ≠ (sl B ((H k + s) % n)).df := by
  intro fuel
  induction fuel with
  | zero => intro j _ h; omega
  | succ fuel ih =>
    intro j hj hfu
    have hp := Nat.mod_lt (H k + j) hn
    unfold eraseLoop
    rw [rd_ok (by rw [h.len]; exact hp)]
    simp only
    by_cases heq : pr (F k) j = (sl B ((H k + j) % n)).df
    · have hne : j ≠ m := by
        rintro rfl
        rw [← heq] at hstop
        exact Nat.lt_irrefl _ hstop
      obtain ⟨e, he, hke⟩ := h.keyAt (ext_self _) hp (by rw [← heq]; unfold pr; omega)
      have hek : k ≠ e.1 := fun e' => hk e (List.mem_of_getElem? he) e'.symm
      rw [if_pos heq, hke]
      simp only [if_neg hek]
      rw [h.len, inc_pr (hF k) (by omega), next_pos hn]
      exact ih (j + 1) (by omega) (by omega)
    · rw [if_neg heq]
      exact ⟨j, rfl, heq⟩

end Verif.HashMap
