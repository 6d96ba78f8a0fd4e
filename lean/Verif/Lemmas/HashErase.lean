import Verif.Lemmas.HashInsert
import Mathlib.Data.List.Perm.Basic

/-!
# Erasing
-/

namespace Verif.HashMap

variable {κ α : Type} {H F : κ → Nat} {n : Nat} {vs : List (κ × α)} {B : List Bucket}

/-- A table with a hole at `p`: the bucket of value `v` is gone. -/
structure Hole (H F : κ → Nat) (n : Nat) (vs : List (κ × α)) (B : List Bucket) (p v : Nat) : Prop where
  len : B.length = n
  lt : p < n
  zero : ∀ q, q < n → q ≠ p → (sl B q).df = 0 → (sl B q).idx = 0
  sound : ∀ q, q < n → q ≠ p → (sl B q).df ≠ 0 → Snd H F n vs (sl B q) q
  full : ∀ u, u < vs.length → u ≠ v → ∃ q, q < n ∧ q ≠ p ∧ (sl B q).df ≠ 0 ∧ (sl B q).idx = u
  uniq : ∀ q, q < n → ∀ r, r < n → q ≠ p → r ≠ p → (sl B q).df ≠ 0 → (sl B r).df ≠ 0 → (sl B q).idx = (sl B r).idx → q = r
  fresh : ∀ q, q < n → q ≠ p → (sl B q).df ≠ 0 → (sl B q).idx ≠ v
  small : ∀ q, q < n → q ≠ p → (sl B q).df < 2 ^ 32
  loc : ∀ q, q < n → q ≠ p → next n q ≠ p → 512 ≤ (sl B (next n q)).df → (sl B (next n q)).df ≤ (sl B q).df + 256
  hole : ∀ q, q < n → next n q = p → 768 ≤ (sl B (next n p)).df → (sl B (next n p)).df ≤ (sl B q).df + 512

/-- A table without the bucket of value `v`. -/
structure Miss (H F : κ → Nat) (n : Nat) (vs : List (κ × α)) (B : List Bucket) (v : Nat) : Prop where
  len : B.length = n
  zero : ∀ q, q < n → (sl B q).df = 0 → (sl B q).idx = 0
  sound : ∀ q, q < n → (sl B q).df ≠ 0 → Snd H F n vs (sl B q) q
  full : ∀ u, u < vs.length → u ≠ v → ∃ q, q < n ∧ (sl B q).df ≠ 0 ∧ (sl B q).idx = u
  uniq : ∀ q, q < n → ∀ r, r < n → (sl B q).df ≠ 0 → (sl B r).df ≠ 0 → (sl B q).idx = (sl B r).idx → q = r
  fresh : ∀ q, q < n → (sl B q).df ≠ 0 → (sl B q).idx ≠ v
  loc : Loc n B

theorem Inv.df_lt (h : Inv H F n vs B) (hF : ∀ k, F k < 256) (hv : vs.length < 2 ^ 24) {q : Nat} (hq : q < n) :
    (sl B q).df < 2 ^ 32 := by
  by_cases hz : (sl B q).df = 0
  · rw [hz]; decide
  obtain ⟨e, d, he, hd, hp, hdf⟩ := h.sound q hq hz
  subst hp
  have := count_run (h := H e.1) (c := d + 1) _ (by omega) h.uniq h.idx_mem
    (fun j hj => run_to h.loc (by omega) hdf j (by omega))
  rw [Finset.card_range] at this
  rw [hdf]
  have h2 := hF e.1
  clear hdf hz
  generalize F e.1 = f at h2 ⊢
  omega

theorem Inv.hole (h : Inv H F n vs B) (hF : ∀ k, F k < 256) (hv : vs.length < 2 ^ 24) {p : Nat} (hp : p < n) (hz : (sl B p).df ≠ 0) :
    Hole H F n vs B p (sl B p).idx := by
  constructor
  · exact h.len
  · exact hp
  · exact fun q hq _ => h.zero q hq
  · exact fun q hq _ => h.sound q hq
  · intro u hu hne
    obtain ⟨q, hq, h1, h2⟩ := h.full u hu
    refine ⟨q, hq, ?_, h1, h2⟩
    rintro rfl
    exact hne h2.symm
  · exact fun q hq r hr _ _ => h.uniq q hq r hr
  · intro q hq hne h1 e
    exact hne (h.uniq q hq p hp h1 hz e)
  · exact fun q hq _ => h.df_lt hF hv hq
  · exact fun q hq _ _ => h.loc q hq
  · intro q hq hqp hge
    have h1 := h.loc p hp (by omega)
    have h2 := h.loc q hq
    rw [hqp] at h2
    have h3 := h2 (by omega)
    omega

theorem Hole.step {p v : Nat} (h : Hole H F n vs B p v) (hF : ∀ k, F k < 256) (hn : 3 ≤ n) (hge : 512 ≤ (sl B (next n p)).df) :
    Hole H F n vs (B.set p { sl B (next n p) with df := dec (sl B (next n p)).df }) (next n p) v := by
  have hp := h.lt
  have hpl : p < B.length := by rw [h.len]; exact hp
  have hq0 := next_lt hp
  have hqp := next_ne (by omega) hp
  have hdec : dec (sl B (next n p)).df = (sl B (next n p)).df - 256 := by
    have := h.small _ hq0 hqp
    unfold dec
    generalize (sl B (next n p)).df = x at this hge ⊢
    omega
  have hdfp : (sl (B.set p { sl B (next n p) with df := dec (sl B (next n p)).df }) p).df = (sl B (next n p)).df - 256 := by
    rw [sl_set_same hpl]; exact hdec
  have hidp : (sl (B.set p { sl B (next n p) with df := dec (sl B (next n p)).df }) p).idx = (sl B (next n p)).idx := by
    rw [sl_set_same hpl]
  have hsame : ∀ q, q ≠ p → sl (B.set p { sl B (next n p) with df := dec (sl B (next n p)).df }) q = sl B q :=
    fun q hq => sl_set_ne (Ne.symm hq)
  generalize hB' : B.set p { sl B (next n p) with df := dec (sl B (next n p)).df } = B' at *
  have hnz : (sl B (next n p)).df ≠ 0 := by omega
  constructor
  · rw [← hB', List.length_set]; exact h.len
  · exact hq0
  · intro q hq hne hz
    by_cases e : q = p
    · subst e; rw [hdfp] at hz; omega
    · rw [hsame q e] at hz ⊢; exact h.zero q hq e hz
  · intro q hq hne hz
    by_cases e : q = p
    · subst e
      obtain ⟨e, d, he, hd, hpos, hdf⟩ := h.sound _ hq0 hqp hnz
      cases d with
      | zero =>
        have := hF e.1
        rw [hdf] at hge
        omega
      | succ d =>
        refine ⟨e, d, by rw [hidp]; exact he, by omega, ?_, ?_⟩
        · exact next_inj (Nat.mod_lt _ (by omega)) hp (by rw [next_pos (by omega)]; exact hpos)
        · rw [hdfp, hdf, show (d + 1 + 1) * 256 = (d + 1) * 256 + 256 by ring]
          generalize (d + 1) * 256 = y
          omega
    · rw [hsame q e] at hz ⊢; exact h.sound q hq e hz
  · intro u hu hne
    obtain ⟨q, hq, h1, h2, h3⟩ := h.full u hu hne
    by_cases e : q = next n p
    · subst e
      refine ⟨p, hp, Ne.symm hqp, by rw [hdfp]; omega, by rw [hidp]; exact h3⟩
    · exact ⟨q, hq, e, by rw [hsame q h1]; exact h2, by rw [hsame q h1]; exact h3⟩
  · intro q hq r hr hqn hrn h1 h2 h3
    by_cases eq : q = p
    · by_cases er : r = p
      · rw [eq, er]
      · subst eq
        rw [hidp, hsame r er] at h3
        rw [hsame r er] at h2
        exact absurd (h.uniq _ hq0 r hr hqp er hnz h2 h3).symm hrn
    · by_cases er : r = p
      · subst er
        rw [hidp, hsame q eq] at h3
        rw [hsame q eq] at h1
        exact absurd (h.uniq q hq _ hq0 eq hqp h1 hnz h3) hqn
      · rw [hsame q eq] at h1 h3
        rw [hsame r er] at h2 h3
        exact h.uniq q hq r hr eq er h1 h2 h3
  · intro q hq hqn h1
    by_cases e : q = p
    · subst e; rw [hidp]; exact h.fresh _ hq0 hqp hnz
    · rw [hsame q e] at h1 ⊢; exact h.fresh q hq e h1
  · intro q hq hqn
    by_cases e : q = p
    · subst e; rw [hdfp]; have := h.small _ hq0 hqp; omega
    · rw [hsame q e]; exact h.small q hq e
  · intro q hq hqn hnq hge'
    have hqp' : q ≠ p := by
      rintro rfl
      exact hnq rfl
    rw [hsame q hqp']
    by_cases e : next n q = p
    · rw [e, hdfp] at hge' ⊢
      have := h.hole q hq e (by omega)
      omega
    · rw [hsame _ e] at hge' ⊢
      exact h.loc q hq hqp' e hge'
  · intro q hq hqq hge'
    have : q = p := next_inj hq hp hqq
    subst this
    have hne2 : next n (next n q) ≠ q := by
      unfold next
      split <;> split <;> omega
    rw [hsame _ hne2] at hge' ⊢
    rw [hdfp]
    have := h.loc _ hq0 hqp (fun e => hne2 e) (by omega)
    omega

theorem Hole.last {p v : Nat} (h : Hole H F n vs B p v) (hlt : (sl B (next n p)).df < 512) :
    Miss H F n vs (B.set p ⟨0, 0⟩) v := by
  have hp := h.lt
  have hpl : p < B.length := by rw [h.len]; exact hp
  have hz : sl (B.set p ⟨0, 0⟩) p = ⟨0, 0⟩ := sl_set_same hpl
  have hsame : ∀ q, q ≠ p → sl (B.set p ⟨0, 0⟩) q = sl B q := fun q hq => sl_set_ne (Ne.symm hq)
  have hl : (B.set p ⟨0, 0⟩).length = n := by rw [List.length_set]; exact h.len
  generalize B.set p ⟨0, 0⟩ = B' at *
  have hne : ∀ q, (sl B' q).df ≠ 0 → q ≠ p := by
    rintro q h1 rfl
    rw [hz] at h1
    exact h1 rfl
  constructor
  · exact hl
  · intro q hq h1
    by_cases e : q = p
    · subst e; rw [hz]
    · rw [hsame q e] at h1 ⊢; exact h.zero q hq e h1
  · intro q hq h1
    have e := hne q h1
    rw [hsame q e] at h1 ⊢
    exact h.sound q hq e h1
  · intro u hu huv
    obtain ⟨q, hq, h1, h2, h3⟩ := h.full u hu huv
    exact ⟨q, hq, by rw [hsame q h1]; exact h2, by rw [hsame q h1]; exact h3⟩
  · intro q hq r hr h1 h2 h3
    have e1 := hne q h1
    have e2 := hne r h2
    rw [hsame q e1] at h1 h3
    rw [hsame r e2] at h2 h3
    exact h.uniq q hq r hr e1 e2 h1 h2 h3
  · intro q hq h1
    have e := hne q h1
    rw [hsame q e] at h1 ⊢
    exact h.fresh q hq e h1
  · intro q hq h1
    have e := hne (next n q) (by omega)
    rw [hsame _ e] at h1 ⊢
    by_cases eq : q = p
    · subst eq; omega
    · rw [hsame q eq]; exact h.loc q hq eq e h1

theorem shiftDown_ok {v : Nat} (hF : ∀ k, F k < 256) (hn : 3 ≤ n) : ∀ (f m : Nat) (B : List Bucket) (p : Nat), Hole H F n vs B p v → 1 ≤ m → m < n →
    (sl B ((p + m) % n)).df < 512 → m < f + 1 → ∃ B', shiftDown f B p = .ok B' ∧ Miss H F n vs B' v := by
  intro f
  induction f with
  | zero => intro m B p _ h1 _ _ h; omega
  | succ f ih =>
    intro m B p h h1 hm hlt hf
    have hp := h.lt
    have hq0 := next_lt hp
    unfold shiftDown
    rw [h.len, rd_ok (by rw [h.len]; exact hq0)]
    simp only
    by_cases hge : (sl B (next n p)).df ≥ 256 * 2
    · rw [if_pos hge]
      have hm1 : m ≠ 1 := by
        rintro rfl
        rw [show (p + 1) % n = next n p by rw [← next_mod (by omega), Nat.mod_eq_of_lt hp]] at hlt
        omega
      refine ih (m - 1) _ _ (h.step hF hn hge) (by omega) (by omega) ?_ (by omega)
      have e : (next n p + (m - 1)) % n = (p + m) % n := by
        have : next n p = (p + 1) % n := by rw [← next_mod (by omega), Nat.mod_eq_of_lt hp]
        rw [this, Nat.mod_add_mod, show p + 1 + (m - 1) = p + m by omega]
      rw [e, sl_set_ne]
      · exact hlt
      · intro e'
        have : (p + 0) % n = (p + m) % n := by rw [← e']; exact Nat.mod_eq_of_lt hp
        have := pos_inj (by omega) hm this
        omega
    · rw [if_neg hge]
      exact ⟨_, rfl, h.last (by omega)⟩

/-- The last value was the one to go. -/
theorem Miss.drop (h : Miss H F n vs B (vs.length - 1)) : Inv H F n vs.dropLast B := by
  constructor
  · exact h.len
  · exact h.zero
  · intro q hq h1
    obtain ⟨e, d, he, h2⟩ := h.sound q hq h1
    refine ⟨e, d, ?_, h2⟩
    have hlt := (List.getElem?_eq_some_iff.1 he).1
    have := h.fresh q hq h1
    rw [List.getElem?_dropLast, if_pos (by omega)]
    exact he
  · intro u hu
    rw [List.length_dropLast] at hu
    exact h.full u (by omega) (by omega)
  · exact h.uniq
  · exact h.loc

/-- The last value moves to the place of the one that went. -/
theorem Miss.move {v j : Nat} (h : Miss H F n vs B v) (hv : v < vs.length - 1) {e : κ × α} (he : vs[vs.length - 1]? = some e)
    (hj : j < n) (hjn : (sl B j).df ≠ 0) (hji : (sl B j).idx = vs.length - 1) :
    Inv H F n (vs.set v e).dropLast (B.set j { sl B j with idx := v }) := by
  have hjl : j < B.length := by rw [h.len]; exact hj
  have hdj : (sl (B.set j { sl B j with idx := v }) j).df = (sl B j).df := by rw [sl_set_same hjl]
  have hij : (sl (B.set j { sl B j with idx := v }) j).idx = v := by rw [sl_set_same hjl]
  have hsame : ∀ q, q ≠ j → sl (B.set j { sl B j with idx := v }) q = sl B q := fun q hq => sl_set_ne (Ne.symm hq)
  have hl : (B.set j { sl B j with idx := v }).length = n := by rw [List.length_set]; exact h.len
  generalize B.set j { sl B j with idx := v } = B' at *
  have hdf : ∀ q, (sl B' q).df = (sl B q).df := by
    intro q
    by_cases e : q = j
    · subst e; exact hdj
    · rw [hsame q e]
  have hlt : ∀ q, q < n → q ≠ j → (sl B q).df ≠ 0 → (sl B q).idx < vs.length - 1 := by
    intro q hq hne h1
    obtain ⟨e, d, he, _⟩ := h.sound q hq h1
    have := (List.getElem?_eq_some_iff.1 he).1
    have : (sl B q).idx ≠ vs.length - 1 := fun e' => hne (h.uniq q hq j hj h1 hjn (by rw [e', hji]))
    omega
  have hget : ∀ u, u < vs.length - 1 → (vs.set v e).dropLast[u]? = if v = u then some e else vs[u]? := by
    intro u hu
    rw [List.getElem?_dropLast, if_pos (by rw [List.length_set]; exact hu), List.getElem?_set]
    split
    · rw [if_pos (by omega)]
    · rfl
  constructor
  · exact hl
  · intro q hq h1
    by_cases e : q = j
    · subst e; rw [hdf] at h1; exact absurd h1 hjn
    · rw [hsame q e] at h1 ⊢; exact h.zero q hq h1
  · intro q hq h1
    rw [hdf] at h1
    obtain ⟨e', d, he', h2, h3, h4⟩ := h.sound q hq h1
    by_cases eq : q = j
    · subst eq
      rw [hji, he] at he'
      cases he'
      exact ⟨e, d, by rw [hij, hget v hv, if_pos rfl], h2, h3, by rw [hdf]; exact h4⟩
    · refine ⟨e', d, ?_, h2, h3, by rw [hdf]; exact h4⟩
      rw [hsame q eq, hget _ (hlt q hq eq h1), if_neg (Ne.symm (h.fresh q hq h1))]
      exact he'
  · intro u hu
    rw [List.length_dropLast, List.length_set] at hu
    by_cases e : u = v
    · subst e
      exact ⟨j, hj, by rw [hdf]; exact hjn, hij⟩
    · obtain ⟨q, hq, h1, h2⟩ := h.full u (by omega) e
      have hne : q ≠ j := by
        rintro rfl
        omega
      exact ⟨q, hq, by rw [hdf]; exact h1, by rw [hsame q hne]; exact h2⟩
  · intro q hq r hr h1 h2 h3
    rw [hdf] at h1 h2
    by_cases eq : q = j
    · by_cases er : r = j
      · rw [eq, er]
      · subst eq
        rw [hij, hsame r er] at h3
        exact absurd h3.symm (h.fresh r hr h2)
    · by_cases er : r = j
      · subst er
        rw [hij, hsame q eq] at h3
        exact absurd h3 (h.fresh q hq h1)
      · rw [hsame q eq, hsame r er] at h3
        exact h.uniq q hq r hr h1 h2 h3
  · intro q hq
    rw [hdf, hdf]
    exact h.loc q hq

theorem scan_ok (hlen : B.length = n) (hn : 0 < n) {h w d : Nat} (hd : (sl B ((h + d) % n)).idx = w)
    (hno : ∀ i, i < d → (sl B ((h + i) % n)).idx ≠ w) : ∀ (f i : Nat), i ≤ d → d - i < f → scan B w f ((h + i) % n) = .ok ((h + d) % n) := by
  intro f
  induction f with
  | zero => intro i _ h; omega
  | succ f ih =>
    intro i hi hf
    unfold scan
    rw [rd_ok (by rw [hlen]; exact Nat.mod_lt _ hn)]
    simp only
    by_cases e : i = d
    · subst e; rw [if_neg (by rw [hd]; simp)]
    · rw [if_pos (Ne.symm (hno i (by omega))), hlen, next_pos hn]
      exact ih (i + 1) (by omega) (by omega)

variable {hash : κ → Nat} {b : Nat} {t : Table κ α}

/-- The values after erasing number `v`. -/
def without (vs : List (κ × α)) (v : Nat) : List (κ × α) :=
  if v ≠ vs.length - 1 then
    match vs[vs.length - 1]? with
    | none => vs
    | some e => (vs.set v e).dropLast
  else vs.dropLast

theorem doErase_ok (h : TInv hash b t) {p : Nat} (hp : p < 2 ^ b) (hz : (sl t.buckets p).df ≠ 0) :
    ∃ B', doErase hash t p = .ok { t with values := without t.values (sl t.buckets p).idx, buckets := B' } ∧
      Inv (home hash b) (fp hash) (2 ^ b) (without t.values (sl t.buckets p).idx) B' := by
  have h4 := h.four
  have hlt := h.lt
  have hinv := h.inv
  have hv := hinv.idx_mem p hp hz
  rw [Finset.mem_range] at hv
  obtain ⟨m, hm, hme, _⟩ := hinv.gap hlt p
  have hm0 : m ≠ 0 := by
    rintro rfl
    rw [Nat.add_zero, Nat.mod_eq_of_lt hp] at hme
    exact hz hme
  obtain ⟨B', h1, h2⟩ := shiftDown_ok (fp_lt hash) (by omega) (t.buckets.length + 1) m t.buckets p
    (hinv.hole (fp_lt hash) (by have := h.small; omega) hp hz) (by omega) (by omega) (by rw [hme]; decide) (by rw [hinv.len]; omega)
  unfold doErase
  rw [rd_ok (by rw [hinv.len]; exact hp)]
  simp only
  rw [h1]
  simp only
  unfold without
  generalize hvv : (sl t.buckets p).idx = v at *
  by_cases hlast : v = t.values.length - 1
  · rw [if_neg (by simpa using hlast), if_neg (by simpa using hlast)]
    subst hlast
    exact ⟨B', rfl, h2.drop⟩
  · rw [if_pos hlast, if_pos hlast]
    have hll : t.values.length - 1 < t.values.length := by omega
    obtain ⟨e, he⟩ : ∃ e, t.values[t.values.length - 1]? = some e := ⟨_, List.getElem?_eq_getElem hll⟩
    rw [he]
    simp only
    rw [if_pos hv]
    obtain ⟨q, hq, hq1, hq2⟩ := h2.full (t.values.length - 1) hll (Ne.symm hlast)
    obtain ⟨e', d, he', hd, hpos, _⟩ := h2.sound q hq hq1
    rw [hq2, he] at he'
    cases he'
    have hscan := scan_ok (h := home hash b e.1) (w := t.values.length - 1) (d := d) h2.len (by omega) (by rw [hpos]; exact hq2)
      (by
        intro i hi hii
        have hil : (home hash b e.1 + i) % 2 ^ b < 2 ^ b := Nat.mod_lt _ (by omega)
        by_cases hzz : (sl B' ((home hash b e.1 + i) % 2 ^ b)).df = 0
        · have := h2.zero _ hil hzz
          omega
        · have := h2.uniq _ hil q hq hzz hq1 (by rw [hii, hq2])
          rw [← hpos] at this
          have := pos_inj (by omega) hd this
          omega) (B'.length + 1) 0 (Nat.zero_le _) (by rw [h2.len]; omega)
    rw [zero_pos (home_lt hash (by have := h.hi; omega) e.1), hpos] at hscan
    rw [h.sh]
    unfold home at hscan
    rw [hscan]
    simp only
    rw [rd_ok (by rw [h2.len]; exact hq)]
    exact ⟨_, rfl, h2.move (by omega) he hq hq1 hq2⟩

theorem without_perm {vs : List (κ × α)} {v : Nat} {e : κ × α} (hv : vs[v]? = some e) : vs.Perm (e :: without vs v) := by
  obtain ⟨hlt, hve⟩ := List.getElem?_eq_some_iff.1 hv
  rcases List.eq_nil_or_concat vs with rfl | ⟨ys, x, rfl⟩
  · exact absurd hlt (Nat.not_lt_zero _)
  simp only [List.concat_eq_append] at *
  unfold without
  rw [List.length_append, List.length_singleton, Nat.add_sub_cancel]
  by_cases hl : v = ys.length
  · rw [if_neg (by simpa using hl), List.dropLast_concat]
    subst hl
    rw [List.getElem_append_right (Nat.le_refl _)] at hve
    simp only [Nat.sub_self, List.getElem_cons_zero] at hve
    subst hve
    exact List.perm_append_singleton _ _
  · rw [if_pos hl, List.getElem?_append_right (Nat.le_refl _)]
    simp only [Nat.sub_self, List.getElem?_cons_zero]
    rw [List.length_concat] at hlt
    have hvl : v < ys.length := by omega
    rw [List.set_append_left v x hvl, List.dropLast_concat]
    rw [List.getElem_append_left hvl] at hve
    subst hve
    refine (List.perm_append_singleton _ _).trans ?_
    refine ((List.getElem_cons_eraseIdx_perm hvl).symm.cons x).trans ?_
    refine (List.Perm.swap _ _ _).trans ?_
    exact ((List.set_perm_cons_eraseIdx hvl x).symm).cons _

variable [DecidableEq κ]

theorem erase_hit (h : TInv hash b t) {k : κ} {v : Nat} {a : α} (hv : t.values[v]? = some (k, a)) :
    ∃ t', erase hash t k = .ok t' 1 ∧ TInv hash b t' ∧ t.values.Perm ((k, a) :: t'.values) := by
  have hinv := h.inv
  have h4 := h.four
  have hH := home_lt hash (show b ≤ 64 by have := h.hi; omega) k
  obtain ⟨d, hd⟩ := hinv.find hv
  have hdl := hd.len
  have hdn := hd.lt
  have hsm := h.small
  have hne : t.values.isEmpty = false := by
    cases hvv : t.values with
    | nil => rw [hvv] at hv; exact absurd hv (by simp)
    | cons _ _ => rfl
  obtain ⟨s, h1, _, h3, h5, _⟩ := nextWhileLess_ok (h := home hash b k) (f := fp hash k) (m := d) hinv.len (by omega) (fp_lt hash k)
    (by omega) (Nat.le_of_eq hd.df) (t.buckets.length + 1) 0 (Nat.zero_le _) (by rw [hinv.len]; omega)
  have h6 := eraseLoop_hit hinv h.nodup (fp_lt hash) hd h.small (t.buckets.length + 1) s h3 (by rw [hinv.len]; omega) h5
  have hp : (home hash b k + d) % 2 ^ b < 2 ^ b := Nat.mod_lt _ (by omega)
  obtain ⟨B', h7, h8⟩ := doErase_ok h hp (by rw [hd.df]; unfold pr; omega)
  rw [hd.idx] at h7 h8
  rw [zero_pos hH, ← fpOf_eq] at h1
  unfold home at h1
  have hperm := without_perm hv
  refine ⟨{ t with values := without t.values v, buckets := B' }, ?_, ⟨h.lo, h.hi, h.sh, h.cap, ?_, h8, ?_, ?_⟩, hperm⟩
  · unfold erase
    rw [hne]
    simp only [Bool.false_eq_true, if_false]
    unfold home at h6
    rw [← h.sh] at h1 h6
    rw [h1]
    simp only
    rw [h6]
    simp only
    have hrd := rd_ok (B := t.buckets) (i := (home hash b k + d) % 2 ^ b) (by rw [hinv.len]; exact hp)
    have hdf := hd.df
    unfold home at hrd hdf h7
    rw [← h.sh] at hrd hdf h7
    rw [hrd]
    simp only
    rw [if_neg (by rw [hdf]; simp), h7]
  · have := (hperm.map (·.1)).nodup_iff.1 h.nodup
    rw [List.map_cons, List.nodup_cons] at this
    exact this.2
  · have := hperm.length_eq
    have hle := h.le
    rw [List.length_cons] at this
    simp only
    omega
  · have := hperm.length_eq
    rw [List.length_cons] at this
    simp only
    omega

theorem erase_miss (h : TInv hash b t) {k : κ} (hk : ∀ e ∈ t.values, e.1 ≠ k) : erase hash t k = .ok t 0 := by
  unfold erase
  by_cases hne : t.values.isEmpty = true
  · rw [if_pos hne]
  rw [if_neg hne]
  have hinv := h.inv
  have h4 := h.four
  have hlt := h.lt
  have hsm := h.small
  have hH := home_lt hash (show b ≤ 64 by have := h.hi; omega) k
  obtain ⟨m, hm, he, _⟩ := hinv.gap h.lt (home hash b k)
  obtain ⟨s, h1, _, h3, _⟩ := nextWhileLess_ok (h := home hash b k) (f := fp hash k) (m := m) hinv.len (by omega) (fp_lt hash k)
    (by omega) (by rw [he]; exact Nat.zero_le _) (t.buckets.length + 1) 0 (Nat.zero_le _) (by rw [hinv.len]; omega)
  obtain ⟨s', h5, h6⟩ := eraseLoop_miss hinv (fp_lt hash) hk (by omega) (m := m) (by omega) (by rw [he]; unfold pr; omega)
    (t.buckets.length + 1) s h3 (by rw [hinv.len]; omega)
  rw [zero_pos hH, ← fpOf_eq] at h1
  have hrd := rd_ok (B := t.buckets) (i := (home hash b k + s') % 2 ^ b) (by rw [hinv.len]; exact Nat.mod_lt _ (by omega))
  unfold home at h1 h5 h6 hrd
  rw [h.sh, h1]
  simp only
  rw [h5]
  simp only
  rw [hrd]
  simp only
  rw [if_pos h6]

end Verif.HashMap
