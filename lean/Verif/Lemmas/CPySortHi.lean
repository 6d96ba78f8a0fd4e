import Verif.Lemmas.CPySortLo

/-!
# `merge_hi`
-/

namespace Verif.CPySort

open Verif.Spec

variable {σ ε α : Type}

/-- What `merge_hi` knows: `D` is finished, `A` is what is left of the first run, `B` what is left of the
second run (in the work area). -/
structure HiInv (h : Host σ ε) (lt : ε → ε → Bool) (O A B D : List ε) : Prop where
  perm : (A ++ (B ++ D)).Perm O
  sa : Good h lt → SortedBy lt (A ++ D)
  sb : Good h lt → SortedBy lt (B ++ D)
  order : Good h lt → SameOrder lt (A ++ (B ++ D)) O
  dom : Good h lt → ∀ y, B.head? = some y → ∀ a ∈ A, lt y a = true

theorem HiInv.takeA {h : Host σ ε} {lt : ε → ε → Bool} {O A X B D : List ε} (i : HiInv h lt O (A ++ X) B D)
    (hx : Good h lt → ∀ x ∈ X, ∀ b ∈ B, lt b x = true) : HiInv h lt O A B (X ++ D) := by
  refine ⟨?_, ?_, ?_, ?_, ?_⟩
  · refine List.Perm.trans ?_ i.perm
    rw [List.append_assoc]
    refine List.Perm.append_left _ ?_
    rw [← List.append_assoc, ← List.append_assoc]
    exact List.Perm.append_right _ List.perm_append_comm
  · intro G
    have := i.sa G
    rwa [List.append_assoc] at this
  · intro G
    have ha := i.sa G
    have hb := i.sb G
    rw [sortedBy_append] at ha hb
    have ha2 := sortedBy_append.1 ha.1
    rw [← List.append_assoc, sortedBy_append, sortedBy_append]
    refine ⟨⟨hb.1, ha2.2.1, fun x hxm y hy => G.sw.asymm (hx G y hy x hxm)⟩, hb.2.1, ?_⟩
    intro x hxm y hy
    rcases List.mem_append.1 hxm with hxm | hxm
    · exact hb.2.2 x hxm y hy
    · exact ha.2.2 x (List.mem_append_right _ hxm) y hy
  · intro G
    refine SameOrder.trans ?_ (i.order G)
    rw [List.append_assoc, ← List.append_assoc X, ← List.append_assoc B]
    refine (SameOrder.refl A).append (SameOrder.append ?_ (SameOrder.refl D))
    exact SameOrder.swap G.sw (fun x hxm y hy => Or.inl (hx G y hy x hxm))
  · intro G x hl b hb
    exact i.dom G x hl b (List.mem_append_left _ hb)

theorem HiInv.takeB {h : Host σ ε} {lt : ε → ε → Bool} {O A B X D : List ε} (i : HiInv h lt O A (B ++ X) D)
    (hx : Good h lt → ∀ x ∈ X, ∀ a ∈ A, lt x a = false) : HiInv h lt O A B (X ++ D) := by
  refine ⟨?_, ?_, ?_, ?_, ?_⟩
  · have := i.perm
    simpa [List.append_assoc] using this
  · intro G
    have ha := i.sa G
    have hb := i.sb G
    rw [sortedBy_append] at ha hb
    have hb2 := sortedBy_append.1 hb.1
    rw [← List.append_assoc, sortedBy_append, sortedBy_append]
    refine ⟨⟨ha.1, hb2.2.1, fun x hxm y hy => hx G y hy x hxm⟩, hb.2.1, ?_⟩
    intro x hxm y hy
    rcases List.mem_append.1 hxm with hxm | hxm
    · exact ha.2.2 x hxm y hy
    · exact hb.2.2 x (List.mem_append_right _ hxm) y hy
  · intro G
    have := i.sb G
    rwa [List.append_assoc] at this
  · intro G
    have := i.order G
    simpa [List.append_assoc] using this
  · intro G x hl a ha
    refine i.dom G x ?_ a ha
    rw [List.head?_append, hl]
    rfl

/-- Where everything is in memory: `A` follows `P`, then a gap as long as `B`, then `D`. -/
structure HiMem (P R t A B D : List ε) (v : Vars) (mem : List ε) : Prop where
  ex : ∃ Gp T, mem = P ++ (A ++ (Gp ++ (D ++ R))) ∧ Gp.length = B.length ∧ t = B ++ T
  na : v.na = A.length
  nb : v.nb = B.length
  dest : v.dest = (P.length + A.length + B.length : Nat) - 1
  sa : v.sa = (P.length + A.length : Nat) - 1
  sb : v.sb = (B.length : Int) - 1

theorem pasteHi (Z D X : List ε) (d : Nat) (hd : d + X.length = Z.length) :
    (Z ++ D).take d ++ X ++ (Z ++ D).drop (d + X.length) = Z.take d ++ (X ++ D) := by
  rw [hd, List.drop_left, List.take_append_of_le_length (by omega), List.append_assoc]

theorem HiMem.pasteA {P R t A X B D : List ε} {v : Vars} {mem : List ε} (m : HiMem P R t (A ++ X) B D v mem)
    {d : Nat} (hd : d = P.length + A.length + B.length) :
    HiMem P R t A B (X ++ D)
      { v with dest := v.dest - X.length, sa := v.sa - X.length, na := v.na - X.length }
      (mem.take d ++ X ++ mem.drop (d + X.length)) := by
  obtain ⟨⟨Gp, T, rfl, hG, hT⟩, hna, hnb, hdest, hsa, hsb⟩ := m
  refine ⟨⟨(X ++ Gp).take Gp.length, T, ?_, ?_, hT⟩, ?_, hnb, ?_, ?_, hsb⟩
  · rw [show P ++ (A ++ X ++ (Gp ++ (D ++ R))) = (P ++ (A ++ (X ++ Gp))) ++ (D ++ R) by simp,
      pasteHi _ _ _ _ (by simp [hd, hG]; omega)]
    have : (P ++ (A ++ (X ++ Gp))).take d = P ++ (A ++ (X ++ Gp).take Gp.length) := by
      rw [hd, ← List.append_assoc P A, ← List.append_assoc P A, ← hG, ← List.length_append, List.take_length_add_append]
    rw [this]
    simp
  · simp [hG]
  · simp only [hna, List.length_append]; omega
  · simp only [hdest, List.length_append]; omega
  · simp only [hsa, List.length_append]; omega

theorem HiMem.pasteB {P R t A B X D : List ε} {v : Vars} {mem : List ε} (m : HiMem P R t A (B ++ X) D v mem)
    {d : Nat} (hd : d = P.length + A.length + B.length) :
    HiMem P R t A B (X ++ D)
      { v with dest := v.dest - X.length, sb := v.sb - X.length, nb := v.nb - X.length }
      (mem.take d ++ X ++ mem.drop (d + X.length)) := by
  obtain ⟨⟨Gp, T, rfl, hG, hT⟩, hna, hnb, hdest, hsa, hsb⟩ := m
  simp only [List.length_append] at hG
  refine ⟨⟨Gp.take B.length, X ++ T, ?_, ?_, ?_⟩, hna, ?_, ?_, hsa, ?_⟩
  · rw [show P ++ (A ++ (Gp ++ (D ++ R))) = (P ++ (A ++ Gp)) ++ (D ++ R) by simp,
      pasteHi _ _ _ _ (by simp [hd, hG]; omega)]
    have : (P ++ (A ++ Gp)).take d = P ++ (A ++ Gp.take B.length) := by
      rw [hd, ← List.append_assoc P A, ← List.append_assoc P A, ← List.length_append, List.take_length_add_append]
    rw [this]
    simp
  · simp [hG]
  · simp [hT]
  · simp only [hnb, List.length_append]; omega
  · simp only [hdest, List.length_append]; omega
  · simp only [hsb, List.length_append]; omega

theorem HiMem.lastA {P R t A B D : List ε} {a : ε} {v : Vars} {mem : List ε} (m : HiMem P R t (A ++ [a]) B D v mem) :
    0 ≤ v.sa ∧ mem[v.sa.toNat]? = some a := by
  obtain ⟨⟨Gp, T, hmem, hG, hT⟩, hna, hnb, hdest, hsa, hsb⟩ := m
  have hr := mid_get (P := P ++ A) (x := a) (R := Gp ++ (D ++ R)) (i := v.sa) (by
    rw [hsa]; simp only [List.length_append, List.length_singleton]; omega)
  refine ⟨hr.1, ?_⟩
  rw [hmem]
  have := hr.2
  simpa [List.append_assoc] using this

theorem HiMem.lastB {P R t A B D : List ε} {b : ε} {v : Vars} {mem : List ε} (m : HiMem P R t A (B ++ [b]) D v mem) :
    0 ≤ v.sb ∧ t[v.sb.toNat]? = some b := by
  obtain ⟨⟨Gp, T, hmem, hG, hT⟩, hna, hnb, hdest, hsa, hsb⟩ := m
  have hr := mid_get (P := B) (x := b) (R := T) (i := v.sb) (by
    rw [hsb]; simp only [List.length_append, List.length_singleton]; omega)
  exact ⟨hr.1, by rw [hT]; simpa using hr.2⟩

/-- Read and write one element of A. -/
theorem ok_wrHA {P R t A B D : List ε} {a : ε} {v : Vars} {s : St σ ε} (m : HiMem P R t (A ++ [a]) B D v s.mem)
    (Q : Unit → St σ ε → Prop)
    (hq : ∀ mem', HiMem P R t A B ([a] ++ D) { v with dest := v.dest - 1, sa := v.sa - 1, na := v.na - 1 } mem' →
      Q () { s with mem := mem' }) :
    Ok (do wr v.dest (← rdm v.sa)) s Q := by
  have hd : v.dest.toNat = P.length + A.length + B.length := by
    rw [m.dest]; simp only [List.length_append, List.length_singleton]; omega
  have m' := HiMem.pasteA (X := [a]) (A := A) (v := v) m hd
  rw [ok_bind, ok_rdm]
  refine ⟨m.lastA.1, a, m.lastA.2, ?_⟩
  rw [ok_wr]
  obtain ⟨Gp, T, hmem, hG, hT⟩ := m.ex
  have hlen : v.dest.toNat < s.mem.length := by
    rw [hmem, hd]; simp; omega
  refine ⟨⟨?_, hlen⟩, ?_⟩
  · rw [m.dest]; simp only [List.length_append, List.length_singleton]; omega
  · rw [set_paste _ _ _ hlen]
    exact hq _ m'

/-- Read and write one element of B. -/
theorem ok_wrHB {P R t A B D : List ε} {b : ε} {v : Vars} {s : St σ ε} (m : HiMem P R t A (B ++ [b]) D v s.mem)
    (Q : Unit → St σ ε → Prop)
    (hq : ∀ mem', HiMem P R t A B ([b] ++ D) { v with dest := v.dest - 1, sb := v.sb - 1, nb := v.nb - 1 } mem' →
      Q () { s with mem := mem' }) :
    Ok (do wr v.dest (← rd t v.sb)) s Q := by
  have hd : v.dest.toNat = P.length + A.length + B.length := by
    rw [m.dest]; simp only [List.length_append, List.length_singleton]; omega
  have m' := HiMem.pasteB (X := [b]) (B := B) (v := v) m hd
  rw [ok_bind, ok_rd]
  refine ⟨m.lastB.1, b, m.lastB.2, ?_⟩
  rw [ok_wr]
  obtain ⟨Gp, T, hmem, hG, hT⟩ := m.ex
  have hlen : v.dest.toNat < s.mem.length := by
    rw [hmem, hd]; simp only [List.length_append, List.length_singleton] at *; omega
  refine ⟨⟨?_, hlen⟩, ?_⟩
  · rw [m.dest]; simp only [List.length_append, List.length_singleton]; omega
  · rw [set_paste _ _ _ hlen]
    exact hq _ m'

/-- Move a block of A up. -/
theorem ok_moveA {P R t A X B D : List ε} {v : Vars} {s : St σ ε} {k : Int} (m : HiMem P R t (A ++ X) B D v s.mem)
    (hk : k = X.length) :
    Ok (if k ≠ 0 then move (v.dest - k + 1) (v.sa - k + 1) k else pure PUnit.unit) s (fun _ s2 =>
      ∃ mem2, s2 = { s with mem := mem2 } ∧
        HiMem P R t A B (X ++ D) { v with dest := v.dest - k, sa := v.sa - k, na := v.na - k } mem2) := by
  have hd0 := m.dest
  have hsa := m.sa
  simp only [List.length_append] at hd0 hsa
  have hd : (v.dest - k + 1).toNat = P.length + A.length + B.length := by omega
  have hp := HiMem.pasteA m hd
  obtain ⟨Gp, T, hmem, hG, hT⟩ := m.ex
  split
  · rw [ok_move]
    have hml : s.mem.length = P.length + (A.length + (X.length + (Gp.length + (D.length + R.length)))) := by
      rw [hmem]; simp
    refine ⟨⟨by omega, by omega, by omega, by omega, by omega⟩, ?_⟩
    have hx : (s.mem.drop (v.sa - k + 1).toNat).take k.toNat = X := by
      rw [hmem, show (v.sa - k + 1).toNat = (P ++ A).length by simp only [List.length_append]; omega,
        show P ++ (A ++ X ++ (Gp ++ (D ++ R))) = (P ++ A) ++ (X ++ (Gp ++ (D ++ R))) by simp, List.drop_left,
        show k.toNat = X.length by omega, List.take_left]
    rw [hx]
    refine ⟨_, rfl, ?_⟩
    rw [show (v.dest - k + 1 + k).toNat = (v.dest - k + 1).toNat + X.length by omega]
    rw [← hk] at hp
    exact hp
  · rename_i hk0
    have hX : X = [] := List.eq_nil_of_length_eq_zero (by omega)
    subst hX
    rw [ok_pure]
    refine ⟨s.mem, rfl, ?_⟩
    have hk' : k = 0 := by simpa using hk
    subst hk'
    simpa using m

/-- Copy a block of B back from the work area. -/
theorem ok_storeB {P R t A B X D : List ε} {v : Vars} {s : St σ ε} {k : Int} (m : HiMem P R t A (B ++ X) D v s.mem)
    (hk : k = X.length) :
    Ok (if k ≠ 0 then store t (v.dest - k + 1) (v.sb - k + 1) k else pure PUnit.unit) s (fun _ s2 =>
      ∃ mem2, s2 = { s with mem := mem2 } ∧
        HiMem P R t A B (X ++ D) { v with dest := v.dest - k, sb := v.sb - k, nb := v.nb - k } mem2) := by
  have hd0 := m.dest
  have hsb := m.sb
  simp only [List.length_append] at hd0 hsb
  have hd : (v.dest - k + 1).toNat = P.length + A.length + B.length := by omega
  have hp := HiMem.pasteB m hd
  obtain ⟨Gp, T, hmem, hG, hT⟩ := m.ex
  split
  · rw [ok_store]
    have hml : s.mem.length = P.length + (A.length + (Gp.length + (D.length + R.length))) := by
      rw [hmem]; simp
    have htl : t.length = B.length + (X.length + T.length) := by rw [hT]; simp
    simp only [List.length_append] at hG
    refine ⟨⟨by omega, by omega, by omega, by omega, by omega⟩, ?_⟩
    have hx : (t.drop (v.sb - k + 1).toNat).take k.toNat = X := by
      rw [hT, show (v.sb - k + 1).toNat = B.length by omega, List.append_assoc, List.drop_left,
        show k.toNat = X.length by omega, List.take_left]
    rw [hx]
    refine ⟨_, rfl, ?_⟩
    rw [show (v.dest - k + 1 + k).toNat = (v.dest - k + 1).toNat + X.length by omega]
    rw [← hk] at hp
    exact hp
  · rename_i hk0
    have hX : X = [] := List.eq_nil_of_length_eq_zero (by omega)
    subst hX
    rw [ok_pure]
    refine ⟨s.mem, rfl, ?_⟩
    have hk' : k = 0 := by simpa using hk
    subst hk'
    simpa using m

/-- A loop of `merge_hi` was left through `e`. -/
def HiOut (h : Host σ ε) (lt : ε → ε → Bool) (P R O t : List ε) (s0 : St σ ε) (e : Exit) (v : Vars) (s : St σ ε) : Prop :=
  ∃ A B D, HiMem P R t A B D v s.mem ∧ HiInv h lt O A B D ∧ s.pending = s0.pending ∧
    match e with
    | .fail => Raised h s
    | .succeed => s.err = s0.err ∧ (A = [] ∨ B = [])
    | .copy => s.err = s0.err ∧ B.length = 1 ∧ A ≠ []

/-- A loop of `merge_hi` goes on, with fewer than `n` elements left. -/
def HiIn (h : Host σ ε) (lt : ε → ε → Bool) (P R O t : List ε) (s0 : St σ ε) (n : Nat) (v : Vars) (s : St σ ε) : Prop :=
  ∃ A B D, HiMem P R t A B D v s.mem ∧ HiInv h lt O A B D ∧ s.pending = s0.pending ∧ s.err = s0.err ∧
    1 ≤ A.length ∧ 2 ≤ B.length ∧ A.length + B.length < n

theorem HiOut.from {h : Host σ ε} {lt : ε → ε → Bool} {P R O t : List ε} {s0 s1 : St σ ε} {e : Exit} {v : Vars}
    {s : St σ ε} (o : HiOut h lt P R O t s1 e v s) (hp : s1.pending = s0.pending) (he : s1.err = s0.err) :
    HiOut h lt P R O t s0 e v s := by
  obtain ⟨D, A, B, m, i, p, x⟩ := o
  refine ⟨D, A, B, m, i, p.trans hp, ?_⟩
  cases e with
  | fail => exact x
  | succeed => exact ⟨x.1.trans he, x.2⟩
  | copy => exact ⟨x.1.trans he, x.2⟩

theorem HiIn.from {h : Host σ ε} {lt : ε → ε → Bool} {P R O t : List ε} {s0 s1 : St σ ε} {n m : Nat} {v : Vars}
    {s : St σ ε} (o : HiIn h lt P R O t s1 n v s) (hp : s1.pending = s0.pending) (he : s1.err = s0.err)
    (hn : n ≤ m) : HiIn h lt P R O t s0 m v s := by
  obtain ⟨D, A, B, mm, i, p, e, x, y, z⟩ := o
  exact ⟨D, A, B, mm, i, p.trans hp, e.trans he, x, y, by omega⟩

theorem snoc_of_pos {l : List ε} (hl : 1 ≤ l.length) : ∃ L x, l = L ++ [x] := by
  rcases List.eq_nil_or_concat l with rfl | ⟨L, x, h⟩
  · simp at hl
  · exact ⟨L, x, by simpa using h⟩

theorem hiSimple_spec (h : Host σ ε) (lt : ε → ε → Bool) (P R O t : List ε) (mg : Int) :
    ∀ (f : Nat) (v : Vars) (ac bc : Int) (n : Nat) (s : St σ ε), HiIn h lt P R O t s n v s → n ≤ f →
      Ok (hiSimple h t mg f v ac bc) s (fun r s' =>
        match r with
        | (some e, v') => HiOut h lt P R O t s e v' s'
        | (none, v') => HiIn h lt P R O t s (n - 1) v' s') := by
  intro f
  induction f with
  | zero => rintro v ac bc n s ⟨D, A, B, _, _, _, _, _, _, hn⟩ hf; omega
  | succ f ih =>
    rintro v ac bc n s ⟨A, B, D, m, inv, _, _, hA, hB, hn⟩ hf
    obtain ⟨A, a, rfl⟩ := snoc_of_pos hA
    obtain ⟨B, b, rfl⟩ := snoc_of_pos (l := B) (by omega)
    have hlA : v.na = A.length + 1 := by have := m.na; simpa using this
    have hlB : v.nb = B.length + 1 := by have := m.nb; simpa using this
    simp only [List.length_append, List.length_singleton] at hA hB hn
    unfold hiSimple
    rw [ok_bind, ok_check]
    refine ⟨by simp; omega, ?_⟩
    rw [ok_bind, ok_rd]
    refine ⟨m.lastB.1, b, m.lastB.2, ?_⟩
    rw [ok_bind, ok_rdm]
    refine ⟨m.lastA.1, a, m.lastA.2, ?_⟩
    rw [ok_bind]
    refine ok_islt h lt _ _ s _ (fun k s1 c e g => ?_) (fun s1 c e _ => ?_)
    · have m1 : HiMem P R t (A ++ [a]) (B ++ [b]) D v s1.mem := by rw [c.mem]; exact m
      cases k with
      | true =>
        have inv' : HiInv h lt O A (B ++ [b]) ([a] ++ D) := HiInv.takeA inv (by
          intro G x hx y hy
          rw [List.mem_singleton.1 hx]
          have hs := (sortedBy_append.1 (sortedBy_append.1 (inv.sb G)).1).2.2
          rcases List.mem_append.1 hy with hy | hy
          · exact G.sw.le_lt (hs y hy b (by simp)) (g G).symm
          · rw [List.mem_singleton.1 hy]; exact (g G).symm)
        simp only
        rw [← bind_assoc, ok_bind]
        refine ok_wrHA m1 _ (fun mem' m' => ?_)
        split
        · rename_i h0
          rw [ok_pure]
          have : A = [] := List.eq_nil_of_length_eq_zero (by omega)
          exact ⟨_, _, _, m', inv', c.pending, e, Or.inl this⟩
        · rename_i h0
          have hin : HiIn h lt P R O t { s1 with mem := mem' } (n - 1)
              { v with dest := v.dest - 1, sa := v.sa - 1, na := v.na - 1 } { s1 with mem := mem' } :=
            ⟨_, _, _, m', inv', rfl, rfl, by omega, by simp; omega, by simp; omega⟩
          split
          · rw [ok_pure]
            exact hin.from c.pending e (Nat.le_refl _)
          · refine (ih _ _ _ (n - 1) _ hin (by omega)).mono ?_
            rintro ⟨_ | e', v'⟩ s3 hr
            · exact HiIn.from hr c.pending e (by omega)
            · exact HiOut.from hr c.pending e
      | false =>
        have inv' : HiInv h lt O (A ++ [a]) B ([b] ++ D) := HiInv.takeB inv (by
          intro G x hx y hy
          rw [List.mem_singleton.1 hx]
          have hs := (sortedBy_append.1 (sortedBy_append.1 (inv.sa G)).1).2.2
          rcases List.mem_append.1 hy with hy | hy
          · exact G.sw.negTrans b a y (g G).symm (hs y hy a (by simp))
          · rw [List.mem_singleton.1 hy]; exact (g G).symm)
        simp only
        rw [← bind_assoc, ok_bind]
        refine ok_wrHB m1 _ (fun mem' m' => ?_)
        split
        · rename_i h0
          rw [ok_pure]
          exact ⟨_, _, _, m', inv', c.pending, e, by omega, by simp⟩
        · rename_i h0
          have hin : HiIn h lt P R O t { s1 with mem := mem' } (n - 1)
              { v with dest := v.dest - 1, sb := v.sb - 1, nb := v.nb - 1 } { s1 with mem := mem' } :=
            ⟨_, _, _, m', inv', rfl, rfl, by simp, by omega, by simp; omega⟩
          split
          · rw [ok_pure]
            exact hin.from c.pending e (Nat.le_refl _)
          · refine (ih _ _ _ (n - 1) _ hin (by omega)).mono ?_
            rintro ⟨_ | e', v'⟩ s3 hr
            · exact HiIn.from hr c.pending e (by omega)
            · exact HiOut.from hr c.pending e
    · simp only [ok_pure]
      exact ⟨A ++ [a], B ++ [b], D, by rw [c.mem]; exact m, inv, c.pending, e⟩

theorem hiGallopB_spec (h : Host σ ε) (lt : ε → ε → Bool) (P R O t : List ε) (v : Vars) (n : Nat) (s : St σ ε)
    (A B D : List ε) (b : ε) (m : HiMem P R t A (B ++ [b]) D v s.mem) (inv : HiInv h lt O A (B ++ [b]) D)
    (hA : 1 ≤ A.length) (hB : 1 ≤ B.length) (hb : Good h lt → ∀ a ∈ A, lt b a = false) (hmax : B.length ≤ 2 ^ 60)
    (hn : A.length + B.length + 1 < n) :
      Ok (hiGallopB h t v) s (fun r s' =>
        match r with
        | (some e, v', _) => HiOut h lt P R O t s e v' s'
        | (none, v', _) => HiIn h lt P R O t s (n - 1) v' s') := by
  unfold hiGallopB
  rw [← bind_assoc, ok_bind]
  refine ok_wrHB m _ (fun mem' m' => ?_)
  have inv' : HiInv h lt O A B ([b] ++ D) := HiInv.takeB inv (by
    intro G x hx y hy
    rw [List.mem_singleton.1 hx]
    exact hb G y hy)
  have hnb : v.nb - 1 = B.length := by rw [m.nb]; simp
  generalize [b] ++ D = D1 at m' inv'
  simp only
  split
  · rename_i h0
    rw [ok_pure]
    exact ⟨_, _, _, m', inv', rfl, rfl, by omega, List.length_pos_iff.1 hA⟩
  · rename_i h0
    obtain ⟨A, a, rfl⟩ := snoc_of_pos hA
    rw [ok_bind, ok_rdm]
    refine ⟨m'.lastA.1, a, m'.lastA.2, ?_⟩
    obtain ⟨Gp, T, hmem, hG, hT⟩ := m'.ex
    rw [ok_bind]
    refine (gallopLeft_spec h lt a t [] B T 0 (v.nb - 1) (v.nb - 1 - 1) (by simpa using hT) rfl hnb (by omega) (by omega)
      (by omega) (fun G => (sortedBy_append.1 (inv'.sb G)).1) _).mono ?_
    rintro r s1 ⟨c, e, g⟩
    match r, g, e with
    | none, _, e =>
      simp only [ok_pure]
      exact ⟨_, _, _, by rw [c.mem]; exact m', inv', c.pending, e⟩
    | some k, g, e =>
      obtain ⟨X, Y, rfl, hk, hXY⟩ := g k rfl
      have hkY : v.nb - 1 - k = Y.length := by rw [hnb, hk, List.length_append]; omega
      generalize hk2 : v.nb - 1 - k = k2 at *
      have hs := fun G => sortedBy_append.1 (sortedBy_append.1 (inv'.sa G)).1
      have inv2 : HiInv h lt O (A ++ [a]) X (Y ++ D1) := HiInv.takeB inv' (by
        intro G x hx y hy
        have h1 : lt x a = false := by simpa using (hXY G).2 x hx
        rcases List.mem_append.1 hy with hy | hy
        · exact G.sw.negTrans x a y h1 ((hs G).2.2 y hy a (by simp))
        · rw [List.mem_singleton.1 hy]; exact h1)
      have m1 : HiMem P R t (A ++ [a]) (X ++ Y) D1
          { dest := v.dest - 1, sa := v.sa, na := v.na, sb := v.sb - 1, nb := v.nb - 1 } s1.mem := by
        rw [c.mem]; exact m'
      simp only [hk2]
      rw [ok_join]
      refine (ok_storeB m1 hkY).mono ?_
      rintro _ s2 ⟨mem2, rfl, m2⟩
      have hnb2 : v.nb - 1 - k2 = X.length := m2.nb
      simp only [List.length_append, List.length_singleton] at hnb hB hn
      split
      · rename_i h2
        rw [ok_pure]
        exact ⟨_, _, _, m2, inv2, c.pending, e, by omega, by simp⟩
      · rename_i h2
        split
        · rename_i h3
          rw [ok_pure]
          exact ⟨_, _, _, m2, inv2, c.pending, e, Or.inr (List.eq_nil_of_length_eq_zero (by omega))⟩
        · rename_i h3
          have inv3 : HiInv h lt O A X ([a] ++ (Y ++ D1)) := HiInv.takeA inv2 (by
            intro G x hx y hy
            rw [List.mem_singleton.1 hx]
            simpa using (hXY G).1 y hy)
          rw [← bind_assoc, ok_bind]
          refine ok_wrHA (s := { s1 with mem := mem2 }) m2 _ (fun mem3 m3 => ?_)
          have hna : v.na - 1 = A.length := by
            have := m2.na; simp only [List.length_append, List.length_singleton] at this; omega
          split
          · rename_i h4
            rw [ok_pure]
            exact ⟨_, _, _, m3, inv3, c.pending, e, Or.inl (List.eq_nil_of_length_eq_zero (by omega))⟩
          · rename_i h4
            rw [ok_pure]
            exact ⟨_, _, _, m3, inv3, c.pending, e, by omega, by omega, by omega⟩

theorem hiGallop_spec (h : Host σ ε) (lt : ε → ε → Bool) (P R O t : List ε) (basea : Int) (hbase : basea = P.length) :
    ∀ (f : Nat) (v : Vars) (mg : Int) (n : Nat) (s : St σ ε), HiIn h lt P R O t s n v s → n ≤ f → n ≤ 2 ^ 60 →
      Ok (hiGallop h t basea f v mg) s (fun r s' =>
        match r with
        | (some e, v', _) => HiOut h lt P R O t s e v' s'
        | (none, v', _) => HiIn h lt P R O t s (n - 1) v' s') := by
  intro f
  induction f with
  | zero => rintro v mg n s ⟨D, A, B, _, _, _, _, _, _, hn⟩ hf; omega
  | succ f ih =>
    rintro v mg n s ⟨A, B, D, m, inv, _, _, hA, hB, hn⟩ hf hmax
    obtain ⟨B, b, rfl⟩ := snoc_of_pos (l := B) (by omega)
    unfold hiGallop
    rw [ok_bind, ok_check]
    simp only [List.length_append, List.length_singleton] at hB hn
    refine ⟨by simp [m.na, m.nb]; omega, ?_⟩
    simp only
    rw [ok_bind, ok_modify, ok_bind, ok_rd]
    refine ⟨m.lastB.1, b, m.lastB.2, ?_⟩
    rw [ok_bind, ok_get, ok_bind]
    obtain ⟨Gp, T, hmem, hG, hT⟩ := m.ex
    generalize mg - (if mg > 1 then 1 else 0) = mg'
    have hlA := m.na
    refine (gallopRight_spec h lt b _ P A _ _ _ (v.na - 1) hmem hbase m.na (by omega) (by omega) (by omega)
      (fun G => (sortedBy_append.1 (inv.sa G)).1) _).mono ?_
    rintro r s1 ⟨c, e, g⟩
    match r, g, e with
    | none, _, e =>
      simp only [ok_pure]
      exact ⟨_, _, _, by rw [c.mem]; exact m, inv, c.pending, e⟩
    | some k, g, e =>
      obtain ⟨X, Y, rfl, hk, hXY⟩ := g k rfl
      have hkY : v.na - k = Y.length := by rw [hlA, hk, List.length_append]; omega
      generalize hk2 : v.na - k = k2 at *
      simp only [hk2]
      rw [ok_join]
      have m1 : HiMem P R t (X ++ Y) (B ++ [b]) D v s1.mem := by rw [c.mem]; exact m
      have inv1 : HiInv h lt O X (B ++ [b]) (Y ++ D) := HiInv.takeA inv (by
        intro G x hx y hy
        have h1 : lt b x = true := by simpa using (hXY G).2 x hx
        have h2 := (sortedBy_append.1 (sortedBy_append.1 (inv.sb G)).1).2.2
        rcases List.mem_append.1 hy with hy | hy
        · exact G.sw.le_lt (h2 y hy b (by simp)) h1
        · rw [List.mem_singleton.1 hy]; exact h1)
      refine (ok_moveA m1 hkY).mono ?_
      rintro _ s2 ⟨mem2, rfl, m2⟩
      generalize Y ++ D = D2 at m2 inv1
      have hna : v.na - k2 = X.length := m2.na
      simp only [List.length_append] at hA hn hlA
      split
      · rename_i h1
        rw [ok_pure]
        exact ⟨_, _, _, m2, inv1, c.pending, e, Or.inl (List.eq_nil_of_length_eq_zero (by omega))⟩
      · rename_i h1
        rw [ok_bind]
        refine (hiGallopB_spec h lt P R O t _ n { s1 with mem := mem2 } X B D2 b m2 inv1 (by omega) (by omega) ?_ (by omega)
          (by omega)).mono ?_
        · intro G a ha
          simpa using (hXY G).1 a ha
        · rintro ⟨_ | ex, v3, bc⟩ s3 hr
          · have hr' : HiIn h lt P R O t s3 (n - 1) v3 s3 := by
              obtain ⟨D3, A3, B3, x1, x2, x3, x4, x5⟩ := hr
              exact ⟨D3, A3, B3, x1, x2, rfl, rfl, x5⟩
            have hp : s3.pending = s.pending ∧ s3.err = s.err := by
              obtain ⟨D3, A3, B3, x1, x2, x3, x4, x5⟩ := hr
              exact ⟨x3.trans c.pending, x4.trans e⟩
            simp only
            split
            · refine (ih v3 mg' (n - 1) s3 hr' (by omega) (by omega)).mono ?_
              rintro ⟨_ | e', v', _⟩ s4 hr4
              · exact HiIn.from hr4 hp.1 hp.2 (by omega)
              · exact HiOut.from hr4 hp.1 hp.2
            · rw [ok_pure]
              exact hr'.from hp.1 hp.2 (Nat.le_refl _)
          · simp only [ok_pure]
            exact HiOut.from hr c.pending e

theorem hiOuter_spec (h : Host σ ε) (lt : ε → ε → Bool) (P R O t : List ε) (basea : Int) (hbase : basea = P.length) :
    ∀ (f : Nat) (v : Vars) (mg : Int) (n : Nat) (s : St σ ε), HiIn h lt P R O t s n v s → n ≤ f → n ≤ 2 ^ 60 →
      Ok (hiOuter h t basea f v mg) s (fun r s' => HiOut h lt P R O t s r.1 r.2 s') := by
  intro f
  induction f with
  | zero => rintro v mg n s ⟨D, A, B, _, _, _, _, _, _, hn⟩ hf; omega
  | succ f ih =>
    intro v mg n s hin hf hmax
    have key : ∀ (v : Vars) (s : St σ ε), HiIn h lt P R O t s n v s →
        ∃ n', n' ≤ n ∧ n' ≤ (v.na + v.nb).toNat + 1 ∧ HiIn h lt P R O t s n' v s := by
      rintro v s ⟨A, B, D, m, inv, a, b, c, d, e⟩
      refine ⟨A.length + B.length + 1, by omega, ?_, A, B, D, m, inv, a, b, c, d, by omega⟩
      rw [m.na, m.nb]; omega
    have reset : ∀ (n : Nat) (v : Vars) (s s' : St σ ε), HiIn h lt P R O t s n v s' →
        HiIn h lt P R O t s' n v s' ∧ s'.pending = s.pending ∧ s'.err = s.err := by
      rintro n v s s' ⟨D, A, B, m, inv, a, b, c⟩
      exact ⟨⟨D, A, B, m, inv, rfl, rfl, c⟩, a, b⟩
    obtain ⟨n1, hn1, hf1, hin1⟩ := key v s hin
    unfold hiOuter
    rw [ok_bind]
    refine (hiSimple_spec h lt P R O t mg _ v 0 0 n1 s hin1 hf1).mono ?_
    rintro ⟨_ | ex, v1⟩ s1 hr
    · obtain ⟨hr, hp, he⟩ := reset _ _ _ _ hr
      obtain ⟨n2, hn2, hf2, hin2⟩ := key v1 s1 (hr.from rfl rfl (by omega))
      simp only
      rw [ok_bind]
      refine (hiGallop_spec h lt P R O t basea hbase _ v1 (mg + 1) n2 s1 hin2 hf2 (by omega)).mono ?_
      rintro ⟨_ | ex, v2, mg2⟩ s2 hr2
      · obtain ⟨hr2, hp2, he2⟩ := reset _ _ _ _ hr2
        simp only
        rw [ok_bind, ok_modify]
        have hin3 : HiIn h lt P R O t { s2 with minGallop := mg2 + 1 } (n - 1) v2 { s2 with minGallop := mg2 + 1 } := by
          obtain ⟨D, A, B, m, inv, a, b, c, d, e⟩ := hr2
          exact ⟨D, A, B, m, inv, rfl, rfl, c, d, by omega⟩
        refine (ih v2 (mg2 + 1) (n - 1) _ hin3 (by omega) (by omega)).mono ?_
        intro r s3 hr3
        exact HiOut.from hr3 (hp2.trans hp) (he2.trans he)
      · simp only [ok_pure]
        exact HiOut.from hr2 hp he
    · simp only [ok_pure]
      exact hr

/-- What the exits make of the interrupted state. -/
theorem hiExit_spec (h : Host σ ε) (lt : ε → ε → Bool) (P R O t : List ε) (s0 : St σ ε) (e : Exit) (v : Vars)
    (s : St σ ε) (o : HiOut h lt P R O t s0 e v s) :
    Ok (hiExit t e v) s (fun r s' => ∃ W, Merged h lt P O R s0 r s' W) := by
  obtain ⟨A, B, D, m, inv, hp, x⟩ := o
  have fin : ∀ mem2, HiMem P R t A [] (B ++ D) { v with dest := v.dest - v.nb, sb := v.sb - v.nb, nb := v.nb - v.nb } mem2 →
      mem2 = P ++ ((A ++ (B ++ D)) ++ R) := by
    intro mem2 m2
    obtain ⟨Gp, T, hm, hG, _⟩ := m2.ex
    have : Gp = [] := List.eq_nil_of_length_eq_zero (by simpa using hG)
    subst this
    rw [hm]; simp
  have m0 : HiMem P R t A ([] ++ B) D v s.mem := by simpa using m
  have hst := ok_storeB m0 m.nb
  rw [show v.dest - v.nb + 1 = v.dest - (v.nb - 1) by omega, show v.sb - v.nb + 1 = 0 by rw [m.nb, m.sb]; omega] at hst
  cases e with
  | succeed =>
    simp only [hiExit]
    rw [ok_join]
    refine hst.mono ?_
    rintro _ s2 ⟨mem2, rfl, m2⟩
    rw [ok_pure]
    refine ⟨A ++ (B ++ D), hp, fin mem2 m2, inv.perm, x.1, fun _ => inv.order, fun _ G => ?_⟩
    rcases x.2 with rfl | rfl
    · simpa using inv.sb G
    · simpa using inv.sa G
  | fail =>
    simp only [hiExit]
    rw [ok_join]
    refine hst.mono ?_
    rintro _ s2 ⟨mem2, rfl, m2⟩
    rw [ok_pure]
    refine ⟨A ++ (B ++ D), hp, fin mem2 m2, inv.perm, ?_, by simp, by simp⟩
    exact x
  | copy =>
    obtain ⟨he, hB, hA⟩ := x
    simp only [hiExit]
    match B, hB with
    | [b], _ =>
      have hAl : 0 < A.length := List.length_pos_iff.2 hA
      rw [ok_bind, ok_check]
      refine ⟨by simp [m.na, m.nb]; exact hAl, ?_⟩
      have mA : HiMem P R t ([] ++ A) [b] D v s.mem := by simpa using m
      have hmv := ok_moveA mA m.na
      rw [if_pos (by rw [m.na]; omega), show v.dest - v.na + 1 = v.dest + (1 - v.na) by omega,
        show v.sa - v.na + 1 = v.sa + (1 - v.na) by omega] at hmv
      rw [ok_bind]
      refine hmv.mono ?_
      rintro _ s2 ⟨mem2, rfl, m2⟩
      rw [← bind_assoc, ok_bind]
      refine ok_wrHB (B := []) (s := { s with mem := mem2 }) m2 _ (fun mem3 m3 => ?_)
      rw [ok_pure]
      obtain ⟨Gp, T, hm, hG, _⟩ := m3.ex
      have : Gp = [] := List.eq_nil_of_length_eq_zero (by simpa using hG)
      subst this
      have hdom : Good h lt → ∀ x ∈ A, ∀ y ∈ [b], lt y x = true := by
        intro G x hx y hy
        rw [List.mem_singleton.1 hy]
        exact inv.dom G b rfl x hx
      have inv2 : HiInv h lt O [] [b] (A ++ D) := HiInv.takeA (by simpa using inv) hdom
      refine ⟨[b] ++ (A ++ D), hp, ?_, ?_, he, ?_, ?_⟩
      · simp only; rw [hm]; simp
      · simpa using inv2.perm
      · intro _ G; simpa using inv2.order G
      · intro _ G; simpa using inv2.sb G

theorem mergeHi_spec (h : Host σ ε) (lt : ε → ε → Bool) (P A B R : List ε) (ssa na ssb nb : Int) (s : St σ ε)
    (hmem : s.mem = P ++ (A ++ (B ++ R))) (hssa : ssa = P.length) (hna : na = A.length)
    (hssb : ssb = (P.length + A.length : Nat)) (hnb : nb = B.length) (hA : A ≠ []) (hB : B ≠ [])
    (hmax : B.length < 2 ^ 59) (hmax2 : A.length + B.length ≤ 2 ^ 60)
    (sa : Good h lt → SortedBy lt A) (sb : Good h lt → SortedBy lt B)
    (last : Good h lt → ∀ x, A.getLast? = some x → ∀ b ∈ B, lt b x = true)
    (dom : Good h lt → ∀ b, B.head? = some b → ∀ a ∈ A, lt b a = true) :
    Ok (mergeHi h ssa na ssb nb) s (fun r s' => ∃ W, Merged h lt P (A ++ B) R s r s' W) := by
  have hAl : 0 < A.length := List.length_pos_iff.2 hA
  have hBl : 0 < B.length := List.length_pos_iff.2 hB
  obtain ⟨A, a, rfl⟩ := snoc_of_pos (l := A) (by omega)
  unfold mergeHi
  rw [ok_bind, ok_check]
  refine ⟨by simp [hna, hnb, hssa, hssb]; omega, ?_⟩
  rw [ok_bind]
  refine (getmem_spec h nb s (by omega)).mono ?_
  rintro r s1 ⟨e1, e2, e3, e4, e5⟩
  match r, e4, e5 with
  | none, e4, _ =>
    simp only [ok_pure]
    exact ⟨A ++ [a] ++ B, e2, by rw [e1, hmem]; simp, List.Perm.refl _, e4, by simp, by simp⟩
  | some _, e4, e5 =>
    simp only
    rw [ok_bind, ok_load]
    simp only [List.length_append, List.length_singleton] at *
    have hlen : s1.mem.length = P.length + (A.length + 1 + (B.length + R.length)) := by
      rw [e1, hmem]; simp; omega
    refine ⟨⟨by omega, by omega, by omega, e5 rfl⟩, ?_⟩
    have ht : (s1.mem.drop ssb.toNat).take nb.toNat = B := by
      rw [e1, hmem, ← List.append_assoc P, show ssb.toNat = (P ++ (A ++ [a])).length by
        simp only [List.length_append, List.length_singleton]; omega, List.drop_left,
        show nb.toNat = B.length by omega, List.take_left]
    rw [ht]
    have m0 : HiMem P R B (A ++ [a]) B [] { dest := ssb + (nb - 1), sa := ssa + (na - 1), na := na, sb := nb - 1, nb := nb } s1.mem :=
      ⟨⟨B, [], by rw [e1, hmem]; simp, rfl, by simp⟩, by simp [hna], hnb, by simp [hssb, hnb]; omega, by simp [hssa, hna]; omega, by simp [hnb]⟩
    have inv0 : HiInv h lt (A ++ [a] ++ B) (A ++ [a]) B [] :=
      ⟨by simp, by simpa using sa, by simpa using sb, fun _ => by simpa using SameOrder.refl _, dom⟩
    have inv1 : HiInv h lt (A ++ [a] ++ B) A B [a] := by
      have := HiInv.takeA inv0 (by
        intro G x hx
        rw [List.mem_singleton.1 hx]
        exact last G a (by simp))
      simpa using this
    rw [← bind_assoc, ok_bind]
    refine ok_wrHA m0 _ (fun mem2 m1 => ?_)
    simp only [List.append_nil] at m1
    have m1' : HiMem P R B A B [a] { dest := ssb + (nb - 1) - 1, sa := ssa + (na - 1) - 1, na := na - 1, sb := nb - 1, nb := nb } mem2 := by
      simpa using m1
    have e4' : s1.err = s.err := e4
    split
    · refine hiExit_spec h lt P R _ B s _ _ _ ⟨A, B, [a], m1', inv1, e2, e4', Or.inl ?_⟩
      exact List.eq_nil_of_length_eq_zero (by omega)
    · rename_i h0
      split
      · rename_i h1
        refine hiExit_spec h lt P R _ B s _ _ _ ⟨A, B, [a], m1', inv1, e2, e4', by omega, ?_⟩
        exact List.length_pos_iff.1 (by omega)
      · rename_i h1
        rw [ok_bind, ok_get, ok_bind]
        refine (hiOuter_spec h lt P R (A ++ [a] ++ B) B ssa hssa _ _ _ (A.length + B.length + 1) _
          ⟨A, B, [a], m1', inv1, rfl, rfl, by omega, by omega, by omega⟩ ?_ ?_).mono ?_
        · omega
        · omega
        · rintro ⟨e, v⟩ s3 ho
          exact hiExit_spec h lt P R _ B s _ _ _ (ho.from e2 e4')

end Verif.CPySort
