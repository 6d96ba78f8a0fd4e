import Verif.Lemmas.CPySortRun

/-!
# `merge_lo`
-/

namespace Verif.CPySort

open Verif.Spec

variable {σ ε α : Type}

/-- A merge rearranged `W` to `W'`, sorted and stable if it succeeded under a consistent comparison. -/
structure Merged (h : Host σ ε) (lt : ε → ε → Bool) (P W R : List ε) (s : St σ ε) (r : Option α) (s' : St σ ε)
    (W' : List ε) : Prop where
  pending : s'.pending = s.pending
  mem : s'.mem = P ++ (W' ++ R)
  perm : W'.Perm W
  ends : Ends h s r s'
  order : r.isSome → Good h lt → SameOrder lt W' W
  sorted : r.isSome → Good h lt → SortedBy lt W'

/-- The shape the `do` notation gives to a conditional statement followed by more code. -/
theorem ok_join {c : Prop} [Decidable c] {m : M σ ε PUnit} {k : M σ ε α} {s : St σ ε} {Q : α → St σ ε → Prop} :
    Ok (if c then m >>= fun _ => k else k) s Q ↔
      Ok (if c then m else pure PUnit.unit) s (fun _ s' => Ok k s' Q) := by
  split
  · rw [ok_bind]
  · rw [ok_pure]

theorem getmem_spec (h : Host σ ε) (need : Int) (s : St σ ε) (hn : need < 2 ^ 59) :
    Ok (getmem h need) s (fun r s' => s'.mem = s.mem ∧ s'.pending = s.pending ∧ s'.minGallop = s.minGallop ∧
      Ends h s r s' ∧ (r.isSome → need ≤ s'.alloced)) := by
  unfold getmem
  by_cases h1 : need ≤ s.alloced
  · rw [ok_of_ok (by rw [if_pos h1])]
    exact ⟨rfl, rfl, rfl, rfl, fun _ => h1⟩
  · have h2 : ¬ need > ssizeMax / 8 / (if h.keyed then 2 else 1) := by
      unfold ssizeMax
      split <;> omega
    cases hm : h.malloc s.env need.toNat with
    | mk b e =>
      cases b with
      | true =>
        rw [ok_of_ok (by rw [if_neg h1, if_neg h2, hm])]
        exact ⟨rfl, rfl, rfl, rfl, fun _ => Int.le_refl _⟩
      | false =>
        rw [ok_of_ok (by rw [if_neg h1, if_neg h2, hm])]
        exact ⟨rfl, rfl, rfl, ⟨_, rfl, Or.inr ⟨rfl, _, _, hm⟩⟩, by simp⟩

/-- What `merge_lo` knows: `D` is finished, `A` is what is left of the first run (in the work area), `B` what
is left of the second run. -/
structure LoInv (h : Host σ ε) (lt : ε → ε → Bool) (O D A B : List ε) : Prop where
  perm : (D ++ (A ++ B)).Perm O
  sa : Good h lt → SortedBy lt (D ++ A)
  sb : Good h lt → SortedBy lt (D ++ B)
  order : Good h lt → SameOrder lt (D ++ (A ++ B)) O
  dom : Good h lt → ∀ x, A.getLast? = some x → ∀ b ∈ B, lt b x = true

theorem LoInv.takeB {h : Host σ ε} {lt : ε → ε → Bool} {O D A X B : List ε} (i : LoInv h lt O D A (X ++ B))
    (hx : Good h lt → ∀ x ∈ X, ∀ a ∈ A, lt x a = true) : LoInv h lt O (D ++ X) A B := by
  refine ⟨?_, ?_, ?_, ?_, ?_⟩
  · refine List.Perm.trans ?_ i.perm
    rw [List.append_assoc]
    refine List.Perm.append_left _ ?_
    rw [← List.append_assoc, ← List.append_assoc]
    exact List.Perm.append_right _ List.perm_append_comm
  · intro G
    have ha := i.sa G
    have hb := i.sb G
    rw [sortedBy_append] at ha hb
    have hb2 := sortedBy_append.1 hb.2.1
    rw [sortedBy_append, sortedBy_append]
    refine ⟨⟨ha.1, hb2.1, fun x hx y hy => hb.2.2 x hx y (List.mem_append_left _ hy)⟩, ha.2.1, ?_⟩
    intro x hxm y hy
    rcases List.mem_append.1 hxm with hxm | hxm
    · exact ha.2.2 x hxm y hy
    · exact G.sw.asymm (hx G x hxm y hy)
  · intro G
    have := i.sb G
    rwa [← List.append_assoc] at this
  · intro G
    refine SameOrder.trans ?_ (i.order G)
    rw [List.append_assoc, ← List.append_assoc X, ← List.append_assoc A]
    refine (SameOrder.refl D).append (SameOrder.append ?_ (SameOrder.refl B))
    exact SameOrder.swap G.sw (fun x hxm y hy => Or.inl (hx G x hxm y hy))
  · intro G x hl b hb
    exact i.dom G x hl b (List.mem_append_right _ hb)

theorem LoInv.takeA {h : Host σ ε} {lt : ε → ε → Bool} {O D X A B : List ε} (i : LoInv h lt O D (X ++ A) B)
    (hx : Good h lt → ∀ x ∈ X, ∀ b ∈ B, lt b x = false) : LoInv h lt O (D ++ X) A B := by
  refine ⟨?_, ?_, ?_, ?_, ?_⟩
  · have := i.perm
    simpa [List.append_assoc] using this
  · intro G
    have := i.sa G
    rwa [← List.append_assoc] at this
  · intro G
    have ha := i.sa G
    have hb := i.sb G
    rw [sortedBy_append] at ha hb
    have ha2 := sortedBy_append.1 ha.2.1
    rw [sortedBy_append, sortedBy_append]
    refine ⟨⟨ha.1, ha2.1, fun x hx y hy => ha.2.2 x hx y (List.mem_append_left _ hy)⟩, hb.2.1, ?_⟩
    intro x hxm y hy
    rcases List.mem_append.1 hxm with hxm | hxm
    · exact hb.2.2 x hxm y hy
    · exact hx G x hxm y hy
  · intro G
    have := i.order G
    simpa [List.append_assoc] using this
  · intro G x hl b hb
    refine i.dom G x ?_ b hb
    rw [List.getLast?_append, hl]
    rfl

/-- Where everything is in memory: `dest` follows `P ++ D`, a gap as long as `A` follows, then `B`. -/
structure LoMem (P R t D A B : List ε) (v : Vars) (mem : List ε) : Prop where
  ex : ∃ Gp T, mem = P ++ (D ++ (Gp ++ (B ++ R))) ∧ Gp.length = A.length ∧ t = T ++ A ∧ v.sa = T.length
  na : v.na = A.length
  nb : v.nb = B.length
  dest : v.dest = (P.length + D.length : Nat)
  sb : v.sb = (P.length + D.length + A.length : Nat)

theorem paste (P D Z X : List ε) (d : Nat) (hd : d = P.length + D.length) :
    (P ++ (D ++ Z)).take d ++ X ++ (P ++ (D ++ Z)).drop (d + X.length) = P ++ (D ++ (X ++ Z.drop X.length)) := by
  subst hd
  rw [← List.append_assoc P D Z, ← List.length_append, List.take_left, List.drop_length_add_append]
  simp

theorem set_paste (m : List ε) (i : Nat) (x : ε) (h : i < m.length) :
    m.set i x = m.take i ++ [x] ++ m.drop (i + [x].length) := by
  rw [List.set_eq_take_append_cons_drop, if_pos h]
  simp

theorem LoMem.pasteB {P R t D A X B : List ε} {v : Vars} {mem : List ε} (m : LoMem P R t D A (X ++ B) v mem)
    {d : Nat} (hd : d = P.length + D.length) :
    LoMem P R t (D ++ X) A B
      { v with dest := v.dest + X.length, sb := v.sb + X.length, nb := v.nb - X.length }
      (mem.take d ++ X ++ mem.drop (d + X.length)) := by
  obtain ⟨⟨Gp, T, rfl, hG, hT, hsa⟩, hna, hnb, hdest, hsb⟩ := m
  refine ⟨⟨(Gp ++ X).drop X.length, T, ?_, ?_, hT, hsa⟩, hna, ?_, ?_, ?_⟩
  · rw [paste P D _ X d hd]
    have : (Gp ++ (X ++ B ++ R)).drop X.length = (Gp ++ X).drop X.length ++ (B ++ R) := by
      rw [List.append_assoc X, ← List.append_assoc Gp, List.drop_append_of_le_length (by simp)]
    rw [this]
    simp
  · simp [hG]
  · simp only [hnb, List.length_append]; omega
  · simp only [hdest, List.length_append]; omega
  · simp only [hsb, List.length_append]; omega

theorem LoMem.pasteA {P R t D X A B : List ε} {v : Vars} {mem : List ε} (m : LoMem P R t D (X ++ A) B v mem)
    {d : Nat} (hd : d = P.length + D.length) :
    LoMem P R t (D ++ X) A B
      { v with dest := v.dest + X.length, sa := v.sa + X.length, na := v.na - X.length }
      (mem.take d ++ X ++ mem.drop (d + X.length)) := by
  obtain ⟨⟨Gp, T, rfl, hG, hT, hsa⟩, hna, hnb, hdest, hsb⟩ := m
  refine ⟨⟨Gp.drop X.length, T ++ X, ?_, ?_, ?_, ?_⟩, ?_, hnb, ?_, ?_⟩
  · rw [paste P D _ X d hd, List.drop_append_of_le_length (by rw [hG]; simp)]
    simp
  · simp [hG]
  · simp [hT]
  · simp only [hsa, List.length_append]; omega
  · simp only [hna, List.length_append]; omega
  · simp only [hdest, List.length_append]; omega
  · simp only [hsb, List.length_append]; omega

/-- Read and write one element of B. -/
theorem ok_wrB {P R t D A B : List ε} {b : ε} {v : Vars} {s : St σ ε} (m : LoMem P R t D A (b :: B) v s.mem)
    (Q : Unit → St σ ε → Prop)
    (hq : ∀ mem', LoMem P R t (D ++ [b]) A B { v with dest := v.dest + 1, sb := v.sb + 1, nb := v.nb - 1 } mem' →
      Q () { s with mem := mem' }) :
    Ok (do wr v.dest (← rdm v.sb)) s Q := by
  have m' := LoMem.pasteB (X := [b]) (B := B) (v := v) m (d := v.dest.toNat) (by rw [m.dest, Int.toNat_natCast])
  obtain ⟨⟨Gp, T, hmem, hG, hT, hsa⟩, hna, hnb, hdest, hsb⟩ := m
  have hr := mid_get (P := P ++ (D ++ Gp)) (x := b) (R := B ++ R) (i := v.sb) (by
    rw [hsb]; simp only [List.length_append]; omega)
  rw [ok_bind, ok_rdm]
  refine ⟨hr.1, b, ?_, ?_⟩
  · rw [hmem]
    have := hr.2
    simpa [List.append_assoc] using this
  · rw [ok_wr]
    have hlen : v.dest.toNat < s.mem.length := by
      rw [hmem, hdest]; simp; omega
    refine ⟨⟨by omega, hlen⟩, ?_⟩
    rw [set_paste _ _ _ hlen]
    exact hq _ m'

/-- Read and write one element of A. -/
theorem ok_wrA {P R t D A B : List ε} {a : ε} {v : Vars} {s : St σ ε} (m : LoMem P R t D (a :: A) B v s.mem)
    (Q : Unit → St σ ε → Prop)
    (hq : ∀ mem', LoMem P R t (D ++ [a]) A B { v with dest := v.dest + 1, sa := v.sa + 1, na := v.na - 1 } mem' →
      Q () { s with mem := mem' }) :
    Ok (do wr v.dest (← rd t v.sa)) s Q := by
  have m' := LoMem.pasteA (X := [a]) (A := A) (v := v) m (d := v.dest.toNat) (by rw [m.dest, Int.toNat_natCast])
  obtain ⟨⟨Gp, T, hmem, hG, hT, hsa⟩, hna, hnb, hdest, hsb⟩ := m
  have hr := mid_get (P := T) (x := a) (R := A) (i := v.sa) hsa
  rw [ok_bind, ok_rd]
  refine ⟨hr.1, a, by rw [hT]; exact hr.2, ?_⟩
  rw [ok_wr]
  have hlen : v.dest.toNat < s.mem.length := by
    rw [hmem, hdest]; simp only [List.length_append] at *; simp at hG; omega
  refine ⟨⟨by omega, hlen⟩, ?_⟩
  rw [set_paste _ _ _ hlen]
  exact hq _ m'

/-- Move a block of B down. -/
theorem ok_moveB {P R t D A X B : List ε} {v : Vars} {s : St σ ε} {k : Int} (m : LoMem P R t D A (X ++ B) v s.mem)
    (hk : k = X.length) :
    Ok (if k ≠ 0 then move v.dest v.sb k else pure PUnit.unit) s (fun _ s2 =>
      ∃ mem2, s2 = { s with mem := mem2 } ∧
        LoMem P R t (D ++ X) A B { v with dest := v.dest + k, sb := v.sb + k, nb := v.nb - k } mem2) := by
  have hp := LoMem.pasteB m (d := v.dest.toNat) (by rw [m.dest, Int.toNat_natCast])
  obtain ⟨Gp, T, hmem, hG, hT, hsa⟩ := m.ex
  have hd := m.dest
  have hsb := m.sb
  split
  · rw [ok_move]
    have hml : s.mem.length = P.length + (D.length + (Gp.length + (X.length + (B.length + R.length)))) := by
      rw [hmem]; simp
    refine ⟨⟨by omega, by omega, by omega, by omega, by rw [hml, hG, hsb]; omega⟩, ?_⟩
    have hx : (s.mem.drop v.sb.toNat).take k.toNat = X := by
      rw [hmem, hsb, Int.toNat_natCast, ← hG,
        show P ++ (D ++ (Gp ++ (X ++ B ++ R))) = (P ++ D ++ Gp) ++ (X ++ (B ++ R)) by simp,
        show P.length + D.length + Gp.length = (P ++ D ++ Gp).length by simp [Nat.add_assoc], List.drop_left,
        show k.toNat = X.length by omega, List.take_left]
    rw [hx]
    refine ⟨_, rfl, ?_⟩
    rw [show (v.dest + k).toNat = v.dest.toNat + X.length by omega, hk]
    exact hp
  · rename_i hk0
    have hX : X = [] := List.eq_nil_of_length_eq_zero (by omega)
    subst hX
    rw [ok_pure]
    refine ⟨s.mem, rfl, ?_⟩
    have hk' : k = 0 := by simpa using hk
    subst hk'
    simpa using m

/-- Copy a block of A back from the work area. -/
theorem ok_storeA {P R t D A X B : List ε} {v : Vars} {s : St σ ε} {k : Int} (m : LoMem P R t D (X ++ A) B v s.mem)
    (hk : k = X.length) :
    Ok (if k ≠ 0 then store t v.dest v.sa k else pure PUnit.unit) s (fun _ s2 =>
      ∃ mem2, s2 = { s with mem := mem2 } ∧
        LoMem P R t (D ++ X) A B { v with dest := v.dest + k, sa := v.sa + k, na := v.na - k } mem2) := by
  have hp := LoMem.pasteA m (d := v.dest.toNat) (by rw [m.dest, Int.toNat_natCast])
  obtain ⟨Gp, T, hmem, hG, hT, hsa⟩ := m.ex
  have hd := m.dest
  have hsb := m.sb
  split
  · rw [ok_store]
    have hml : s.mem.length = P.length + (D.length + (Gp.length + (B.length + R.length))) := by
      rw [hmem]; simp
    have htl : t.length = T.length + (X.length + A.length) := by rw [hT]; simp
    simp only [List.length_append] at hG
    refine ⟨⟨by omega, by omega, by omega, by omega, by omega⟩, ?_⟩
    have hx : (t.drop v.sa.toNat).take k.toNat = X := by
      rw [hT, hsa, Int.toNat_natCast, List.drop_left, show k.toNat = X.length by omega, List.take_left]
    rw [hx]
    refine ⟨_, rfl, ?_⟩
    rw [show (v.dest + k).toNat = v.dest.toNat + X.length by omega, hk]
    exact hp
  · rename_i hk0
    have hX : X = [] := List.eq_nil_of_length_eq_zero (by omega)
    subst hX
    rw [ok_pure]
    refine ⟨s.mem, rfl, ?_⟩
    have hk' : k = 0 := by simpa using hk
    subst hk'
    simpa using m

theorem LoMem.headB {P R t D A B : List ε} {b : ε} {v : Vars} {mem : List ε} (m : LoMem P R t D A (b :: B) v mem) :
    0 ≤ v.sb ∧ mem[v.sb.toNat]? = some b := by
  obtain ⟨⟨Gp, T, hmem, hG, hT, hsa⟩, hna, hnb, hdest, hsb⟩ := m
  have hr := mid_get (P := P ++ (D ++ Gp)) (x := b) (R := B ++ R) (i := v.sb) (by
    rw [hsb]; simp only [List.length_append]; omega)
  refine ⟨hr.1, ?_⟩
  rw [hmem]
  have := hr.2
  simpa [List.append_assoc] using this

theorem LoMem.headA {P R t D A B : List ε} {a : ε} {v : Vars} {mem : List ε} (m : LoMem P R t D (a :: A) B v mem) :
    0 ≤ v.sa ∧ t[v.sa.toNat]? = some a := by
  obtain ⟨⟨Gp, T, hmem, hG, hT, hsa⟩, hna, hnb, hdest, hsb⟩ := m
  have hr := mid_get (P := T) (x := a) (R := A) (i := v.sa) hsa
  exact ⟨hr.1, by rw [hT]; exact hr.2⟩

/-- A loop of `merge_lo` was left through `e`. -/
def LoOut (h : Host σ ε) (lt : ε → ε → Bool) (P R O t : List ε) (s0 : St σ ε) (e : Exit) (v : Vars) (s : St σ ε) : Prop :=
  ∃ D A B, LoMem P R t D A B v s.mem ∧ LoInv h lt O D A B ∧ s.pending = s0.pending ∧
    match e with
    | .fail => Raised h s
    | .succeed => s.err = s0.err ∧ (A = [] ∨ B = [])
    | .copy => s.err = s0.err ∧ A.length = 1 ∧ B ≠ []

/-- A loop of `merge_lo` goes on, with fewer than `n` elements left. -/
def LoIn (h : Host σ ε) (lt : ε → ε → Bool) (P R O t : List ε) (s0 : St σ ε) (n : Nat) (v : Vars) (s : St σ ε) : Prop :=
  ∃ D A B, LoMem P R t D A B v s.mem ∧ LoInv h lt O D A B ∧ s.pending = s0.pending ∧ s.err = s0.err ∧
    2 ≤ A.length ∧ 1 ≤ B.length ∧ A.length + B.length < n

theorem LoOut.from {h : Host σ ε} {lt : ε → ε → Bool} {P R O t : List ε} {s0 s1 : St σ ε} {e : Exit} {v : Vars}
    {s : St σ ε} (o : LoOut h lt P R O t s1 e v s) (hp : s1.pending = s0.pending) (he : s1.err = s0.err) :
    LoOut h lt P R O t s0 e v s := by
  obtain ⟨D, A, B, m, i, p, x⟩ := o
  refine ⟨D, A, B, m, i, p.trans hp, ?_⟩
  cases e with
  | fail => exact x
  | succeed => exact ⟨x.1.trans he, x.2⟩
  | copy => exact ⟨x.1.trans he, x.2⟩

theorem LoIn.from {h : Host σ ε} {lt : ε → ε → Bool} {P R O t : List ε} {s0 s1 : St σ ε} {n m : Nat} {v : Vars}
    {s : St σ ε} (o : LoIn h lt P R O t s1 n v s) (hp : s1.pending = s0.pending) (he : s1.err = s0.err)
    (hn : n ≤ m) : LoIn h lt P R O t s0 m v s := by
  obtain ⟨D, A, B, mm, i, p, e, x, y, z⟩ := o
  exact ⟨D, A, B, mm, i, p.trans hp, e.trans he, x, y, by omega⟩

theorem loSimple_spec (h : Host σ ε) (lt : ε → ε → Bool) (P R O t : List ε) (mg : Int) :
    ∀ (f : Nat) (v : Vars) (ac bc : Int) (n : Nat) (s : St σ ε), LoIn h lt P R O t s n v s → n ≤ f →
      Ok (loSimple h t mg f v ac bc) s (fun r s' =>
        match r with
        | (some e, v') => LoOut h lt P R O t s e v' s'
        | (none, v') => LoIn h lt P R O t s (n - 1) v' s') := by
  intro f
  induction f with
  | zero => rintro v ac bc n s ⟨D, A, B, _, _, _, _, _, _, hn⟩ hf; omega
  | succ f ih =>
    rintro v ac bc n s ⟨D, A, B, m, inv, _, _, hA, hB, hn⟩ hf
    match A, B, hA, hB, m, inv, hn with
    | a :: A, b :: B, hA, hB, m, inv, hn =>
      unfold loSimple
      rw [ok_bind, ok_check]
      refine ⟨by simp [m.na, m.nb] at hA ⊢; omega, ?_⟩
      rw [ok_bind, ok_rdm]
      refine ⟨m.headB.1, b, m.headB.2, ?_⟩
      rw [ok_bind, ok_rd]
      refine ⟨m.headA.1, a, m.headA.2, ?_⟩
      rw [ok_bind]
      refine ok_islt h lt _ _ s _ (fun k s1 c e g => ?_) (fun s1 c e _ => ?_)
      · have m1 : LoMem P R t D (a :: A) (b :: B) v s1.mem := by rw [c.mem]; exact m
        cases k with
        | true =>
          have inv' : LoInv h lt O (D ++ [b]) (a :: A) B := LoInv.takeB (X := [b]) inv (by
            intro G x hx y hy
            simp only [List.mem_singleton] at hx
            subst hx
            have hs := (sortedBy_append.1 (inv.sa G)).2.1
            rw [sortedBy_cons] at hs
            rcases List.mem_cons.1 hy with rfl | hy
            · exact (g G).symm
            · exact G.sw.lt_le (g G).symm (hs.1 y hy))
          simp only
          rw [← bind_assoc, ok_bind]
          refine ok_wrB m1 _ (fun mem' m' => ?_)
          have hnb : v.nb - 1 = B.length := by rw [m.nb]; simp
          split
          · rename_i h0
            rw [ok_pure]
            have : B = [] := List.eq_nil_of_length_eq_zero (by simp only [hnb] at h0; omega)
            exact ⟨_, _, _, m', inv', c.pending, e, Or.inr this⟩
          · rename_i h0
            simp only [List.length_cons] at hn
            have hin : LoIn h lt P R O t { s1 with mem := mem' } (n - 1)
                { v with dest := v.dest + 1, sb := v.sb + 1, nb := v.nb - 1 } { s1 with mem := mem' } :=
              ⟨_, _, _, m', inv', rfl, rfl, by simpa using hA, by simp only [hnb] at h0; omega, by
                simp only [List.length_cons]; omega⟩
            split
            · rw [ok_pure]
              exact hin.from c.pending e (Nat.le_refl _)
            · refine (ih _ _ _ (n - 1) _ hin (by omega)).mono ?_
              rintro ⟨_ | e', v'⟩ s3 hr
              · exact LoIn.from hr c.pending e (by omega)
              · exact LoOut.from hr c.pending e
        | false =>
          have inv' : LoInv h lt O (D ++ [a]) A (b :: B) := LoInv.takeA (X := [a]) inv (by
            intro G x hx y hy
            simp only [List.mem_singleton] at hx
            subst hx
            have hs := (sortedBy_append.1 (inv.sb G)).2.1
            rw [sortedBy_cons] at hs
            rcases List.mem_cons.1 hy with rfl | hy
            · exact (g G).symm
            · exact G.sw.negTrans y b x (hs.1 y hy) (g G).symm)
          simp only
          rw [← bind_assoc, ok_bind]
          refine ok_wrA m1 _ (fun mem' m' => ?_)
          have hna : v.na - 1 = A.length := by rw [m.na]; simp
          simp only [List.length_cons] at hn hA
          split
          · rename_i h0
            rw [ok_pure]
            exact ⟨_, _, _, m', inv', c.pending, e, by simp only [hna] at h0; omega, by simp⟩
          · rename_i h0
            have hin : LoIn h lt P R O t { s1 with mem := mem' } (n - 1)
                { v with dest := v.dest + 1, sa := v.sa + 1, na := v.na - 1 } { s1 with mem := mem' } :=
              ⟨_, _, _, m', inv', rfl, rfl, by simp only [hna] at h0; omega, by simp, by
                simp only [List.length_cons]; omega⟩
            split
            · rw [ok_pure]
              exact hin.from c.pending e (Nat.le_refl _)
            · refine (ih _ _ _ (n - 1) _ hin (by omega)).mono ?_
              rintro ⟨_ | e', v'⟩ s3 hr
              · exact LoIn.from hr c.pending e (by omega)
              · exact LoOut.from hr c.pending e
      · simp only [ok_pure]
        exact ⟨D, a :: A, b :: B, by rw [c.mem]; exact m, inv, c.pending, e⟩

theorem loGallopB_spec (h : Host σ ε) (lt : ε → ε → Bool) (P R O t : List ε) (v : Vars) (n : Nat) (s : St σ ε)
    (D A B : List ε) (b : ε) (m : LoMem P R t D A (b :: B) v s.mem) (inv : LoInv h lt O D A (b :: B))
    (hA : 2 ≤ A.length) (hb : Good h lt → ∀ a ∈ A, lt b a = true) (hmax : B.length ≤ 2 ^ 60)
    (hn : A.length + B.length + 1 < n) :
      Ok (loGallopB h t v) s (fun r s' =>
        match r with
        | (some e, v', _) => LoOut h lt P R O t s e v' s'
        | (none, v', _) => LoIn h lt P R O t s (n - 1) v' s') := by
  unfold loGallopB
  rw [← bind_assoc, ok_bind]
  refine ok_wrB m _ (fun mem' m' => ?_)
  have inv' : LoInv h lt O (D ++ [b]) A B := LoInv.takeB (X := [b]) inv (by
    intro G x hx y hy
    simp only [List.mem_singleton] at hx
    subst hx
    exact hb G y hy)
  have hnb : v.nb - 1 = B.length := by rw [m.nb]; simp
  generalize D ++ [b] = D1 at m' inv'
  simp only
  split
  · rename_i h0
    rw [ok_pure]
    have : B = [] := List.eq_nil_of_length_eq_zero (by omega)
    exact ⟨_, _, _, m', inv', rfl, rfl, Or.inr this⟩
  · rename_i h0
    match A, hA, m', inv', hn, hb with
    | a :: A, hA, m', inv', hn, hb =>
      simp only [ok_bind, ok_rd, ok_get]
      refine ⟨m'.headA.1, a, m'.headA.2, ?_⟩
      obtain ⟨Gp, T, hmem, hG, hT, hsa⟩ := m'.ex
      refine (gallopLeft_spec h lt a _ (P ++ (D1 ++ Gp)) B R _ _ 0 ?_ ?_ ?_ (by omega) ?_ ?_ ?_ _).mono ?_
      · rw [hmem]; simp
      · have := m'.sb
        simp only [List.length_append, hG] at this ⊢
        rw [this]; congr 1; omega
      · have := m'.nb; simp only at this; exact this
      · omega
      · omega
      · exact fun G => (sortedBy_append.1 (inv'.sb G)).2.1
      · rintro r s1 ⟨c, e, g⟩
        match r, g, e with
        | none, _, e =>
          simp only [ok_pure]
          refine ⟨_, _, _, by rw [c.mem]; exact m', inv', c.pending, e⟩
        | some k, g, e =>
          obtain ⟨X, Y, rfl, hk, hXY⟩ := g k rfl
          simp only
          rw [ok_join]
          have m1 : LoMem P R t D1 (a :: A) (X ++ Y)
              { dest := v.dest + 1, sa := v.sa, na := v.na, sb := v.sb + 1, nb := v.nb - 1 } s1.mem := by
            rw [c.mem]; exact m'
          have hs := fun G => sortedBy_append.1 (inv'.sa G)
          have inv2 : LoInv h lt O (D1 ++ X) (a :: A) Y := LoInv.takeB inv' (by
            intro G x hx y hy
            have h1 : lt x a = true := by simpa using (hXY G).1 x hx
            have h2 := (hs G).2.1
            rw [sortedBy_cons] at h2
            rcases List.mem_cons.1 hy with rfl | hy
            · exact h1
            · exact G.sw.lt_le h1 (h2.1 y hy))
          refine (ok_moveB m1 hk).mono ?_
          rintro _ s2 ⟨mem2, rfl, m2⟩
          split
          · rename_i h2
            rw [ok_pure]
            have hY : Y = [] := List.eq_nil_of_length_eq_zero (by have := m2.nb; simp only at this; omega)
            exact ⟨_, _, _, m2, inv2, c.pending, e, Or.inr hY⟩
          · rename_i h2
            have hY : 1 ≤ Y.length := by
              have := m2.nb; simp only at this
              have : ¬ (k ≠ 0 ∧ v.nb - 1 - k = 0) := h2
              simp only [List.length_append] at hnb
              omega
            have inv3 : LoInv h lt O (D1 ++ X ++ [a]) A Y := LoInv.takeA (X := [a]) inv2 (by
              intro G x hx y hy
              simp only [List.mem_singleton] at hx
              subst hx
              simpa using (hXY G).2 y hy)
            rw [← bind_assoc, ok_bind]
            refine ok_wrA (s := { s1 with mem := mem2 }) m2 _ (fun mem3 m3 => ?_)
            have hna : v.na - 1 = A.length := by have := m2.na; simp only [List.length_cons] at this; omega
            simp only [List.length_cons] at hA
            simp only
            split
            · rename_i h3
              rw [ok_pure]
              exact ⟨_, _, _, m3, inv3, c.pending, e, by omega, List.ne_nil_of_length_pos (by omega)⟩
            · rename_i h3
              rw [ok_pure]
              refine ⟨_, _, _, m3, inv3, c.pending, e, by omega, hY, ?_⟩
              simp only [List.length_append, List.length_cons] at hn
              omega

theorem loGallop_spec (h : Host σ ε) (lt : ε → ε → Bool) (P R O t : List ε) :
    ∀ (f : Nat) (v : Vars) (mg : Int) (n : Nat) (s : St σ ε), LoIn h lt P R O t s n v s → n ≤ f → n ≤ 2 ^ 60 →
      Ok (loGallop h t f v mg) s (fun r s' =>
        match r with
        | (some e, v', _) => LoOut h lt P R O t s e v' s'
        | (none, v', _) => LoIn h lt P R O t s (n - 1) v' s') := by
  intro f
  induction f with
  | zero => rintro v mg n s ⟨D, A, B, _, _, _, _, _, _, hn⟩ hf; omega
  | succ f ih =>
    rintro v mg n s ⟨D, A, B, m, inv, _, _, hA, hB, hn⟩ hf hmax
    match B, hB, m, inv, hn with
    | b :: B, hB, m, inv, hn =>
      unfold loGallop
      rw [ok_bind, ok_check]
      refine ⟨by simp [m.na, m.nb]; omega, ?_⟩
      simp only
      rw [ok_bind, ok_modify, ok_bind, ok_rdm]
      refine ⟨m.headB.1, b, m.headB.2, ?_⟩
      rw [ok_bind]
      obtain ⟨Gp, T, hmem, hG, hT, hsa⟩ := m.ex
      generalize mg - (if mg > 1 then 1 else 0) = mg'
      simp only [List.length_cons] at hn
      refine (gallopRight_spec h lt b t T A [] _ _ 0 ?_ hsa m.na (by omega) ?_ ?_ ?_ _).mono ?_
      · simpa using hT
      · rw [m.na]; omega
      · rw [m.na]; omega
      · exact fun G => (sortedBy_append.1 (inv.sa G)).2.1
      · rintro r s1 ⟨c, e, g⟩
        match r, g, e with
        | none, _, e =>
          simp only [ok_pure]
          exact ⟨_, _, _, by rw [c.mem]; exact m, inv, c.pending, e⟩
        | some k, g, e =>
          obtain ⟨X, Y, rfl, hk, hXY⟩ := g k rfl
          simp only
          rw [ok_join]
          have m1 : LoMem P R t D (X ++ Y) (b :: B) v s1.mem := by rw [c.mem]; exact m
          have inv1 : LoInv h lt O (D ++ X) Y (b :: B) := LoInv.takeA inv (by
            intro G x hx y hy
            have h1 : lt b x = false := by simpa using (hXY G).1 x hx
            have h2 := (sortedBy_append.1 (inv.sb G)).2.1
            rw [sortedBy_cons] at h2
            rcases List.mem_cons.1 hy with rfl | hy
            · exact h1
            · exact G.sw.negTrans y b x (h2.1 y hy) h1)
          refine (ok_storeA m1 hk).mono ?_
          rintro _ s2 ⟨mem2, rfl, m2⟩
          generalize D ++ X = D2 at m2 inv1
          have hna : v.na - k = Y.length := m2.na
          have hlA : v.na = X.length + Y.length := by have := m.na; simpa using this
          simp only [List.length_append] at hA hn
          split
          · rename_i h1
            rw [ok_pure]
            exact ⟨_, _, _, m2, inv1, c.pending, e, by omega, by simp⟩
          · rename_i h1
            split
            · rename_i h2
              rw [ok_pure]
              exact ⟨_, _, _, m2, inv1, c.pending, e, Or.inl (List.eq_nil_of_length_eq_zero (by omega))⟩
            · rename_i h2
              rw [ok_bind]
              refine (loGallopB_spec h lt P R O t _ n _ D2 Y B b m2 inv1 (by omega) ?_ (by omega) (by omega)).mono ?_
              · intro G a ha
                simpa using (hXY G).2 a ha
              · rintro ⟨_ | ex, v3, bc⟩ s3 hr
                · have hr' : LoIn h lt P R O t s3 (n - 1) v3 s3 := by
                    obtain ⟨D3, A3, B3, x1, x2, x3, x4, x5⟩ := hr
                    exact ⟨D3, A3, B3, x1, x2, rfl, rfl, x5⟩
                  have hp : s3.pending = s.pending ∧ s3.err = s.err := by
                    obtain ⟨D3, A3, B3, x1, x2, x3, x4, x5⟩ := hr
                    exact ⟨x3.trans c.pending, x4.trans e⟩
                  simp only
                  split
                  · refine (ih v3 mg' (n - 1) s3 hr' (by omega) (by omega)).mono ?_
                    rintro ⟨_ | e', v', _⟩ s4 hr4
                    · exact LoIn.from hr4 hp.1 hp.2 (by omega)
                    · exact LoOut.from hr4 hp.1 hp.2
                  · rw [ok_pure]
                    exact hr'.from hp.1 hp.2 (Nat.le_refl _)
                · simp only [ok_pure]
                  exact LoOut.from hr c.pending e

theorem loOuter_spec (h : Host σ ε) (lt : ε → ε → Bool) (P R O t : List ε) :
    ∀ (f : Nat) (v : Vars) (mg : Int) (n : Nat) (s : St σ ε), LoIn h lt P R O t s n v s → n ≤ f → n ≤ 2 ^ 60 →
      Ok (loOuter h t f v mg) s (fun r s' => LoOut h lt P R O t s r.1 r.2 s') := by
  intro f
  induction f with
  | zero => rintro v mg n s ⟨D, A, B, _, _, _, _, _, _, hn⟩ hf; omega
  | succ f ih =>
    intro v mg n s hin hf hmax
    have key : ∀ (v : Vars) (s : St σ ε), LoIn h lt P R O t s n v s →
        ∃ n', n' ≤ n ∧ n' ≤ (v.na + v.nb).toNat + 1 ∧ LoIn h lt P R O t s n' v s := by
      rintro v s ⟨D, A, B, m, inv, a, b, c, d, e⟩
      refine ⟨A.length + B.length + 1, by omega, ?_, D, A, B, m, inv, a, b, c, d, by omega⟩
      rw [m.na, m.nb]; omega
    have reset : ∀ (n : Nat) (v : Vars) (s s' : St σ ε), LoIn h lt P R O t s n v s' →
        LoIn h lt P R O t s' n v s' ∧ s'.pending = s.pending ∧ s'.err = s.err := by
      rintro n v s s' ⟨D, A, B, m, inv, a, b, c⟩
      exact ⟨⟨D, A, B, m, inv, rfl, rfl, c⟩, a, b⟩
    obtain ⟨n1, hn1, hf1, hin1⟩ := key v s hin
    unfold loOuter
    rw [ok_bind]
    refine (loSimple_spec h lt P R O t mg _ v 0 0 n1 s hin1 hf1).mono ?_
    rintro ⟨_ | ex, v1⟩ s1 hr
    · obtain ⟨hr, hp, he⟩ := reset _ _ _ _ hr
      obtain ⟨n2, hn2, hf2, hin2⟩ := key v1 s1 (hr.from rfl rfl (by omega))
      simp only
      rw [ok_bind]
      refine (loGallop_spec h lt P R O t _ v1 (mg + 1) n2 s1 hin2 hf2 (by omega)).mono ?_
      rintro ⟨_ | ex, v2, mg2⟩ s2 hr2
      · obtain ⟨hr2, hp2, he2⟩ := reset _ _ _ _ hr2
        simp only
        rw [ok_bind, ok_modify]
        have hin3 : LoIn h lt P R O t { s2 with minGallop := mg2 + 1 } (n - 1) v2 { s2 with minGallop := mg2 + 1 } := by
          obtain ⟨D, A, B, m, inv, a, b, c, d, e⟩ := hr2
          exact ⟨D, A, B, m, inv, rfl, rfl, c, d, by omega⟩
        refine (ih v2 (mg2 + 1) (n - 1) _ hin3 (by omega) (by omega)).mono ?_
        intro r s3 hr3
        exact LoOut.from hr3 (hp2.trans hp) (he2.trans he)
      · simp only [ok_pure]
        exact LoOut.from hr2 hp he
    · simp only [ok_pure]
      exact hr

/-- What the exits make of the interrupted state. -/
theorem loExit_spec (h : Host σ ε) (lt : ε → ε → Bool) (P R O t : List ε) (s0 : St σ ε) (e : Exit) (v : Vars)
    (s : St σ ε) (o : LoOut h lt P R O t s0 e v s) :
    Ok (loExit t e v) s (fun r s' => ∃ W, Merged h lt P O R s0 r s' W) := by
  obtain ⟨D, A, B, m, inv, hp, x⟩ := o
  have fin : ∀ mem2, LoMem P R t (D ++ A) [] B { v with dest := v.dest + v.na, sa := v.sa + v.na, na := v.na - v.na } mem2 →
      mem2 = P ++ ((D ++ (A ++ B)) ++ R) := by
    intro mem2 m2
    obtain ⟨Gp, T, hm, hG, _⟩ := m2.ex
    have : Gp = [] := List.eq_nil_of_length_eq_zero (by simpa using hG)
    subst this
    rw [hm]; simp
  have m0 : LoMem P R t D (A ++ []) B v s.mem := by simpa using m
  cases e with
  | succeed =>
    simp only [loExit]
    rw [ok_join]
    refine (ok_storeA m0 m.na).mono ?_
    rintro _ s2 ⟨mem2, rfl, m2⟩
    rw [ok_pure]
    refine ⟨D ++ (A ++ B), hp, fin mem2 m2, inv.perm, x.1, fun _ => inv.order, fun _ G => ?_⟩
    rcases x.2 with rfl | rfl
    · simpa using inv.sb G
    · simpa using inv.sa G
  | fail =>
    simp only [loExit]
    rw [ok_join]
    refine (ok_storeA m0 m.na).mono ?_
    rintro _ s2 ⟨mem2, rfl, m2⟩
    rw [ok_pure]
    refine ⟨D ++ (A ++ B), hp, fin mem2 m2, inv.perm, ?_, by simp, by simp⟩
    exact x
  | copy =>
    obtain ⟨he, hA, hB⟩ := x
    simp only [loExit]
    match A, hA with
    | [a], _ =>
      have hBl : 0 < B.length := List.length_pos_iff.2 hB
      rw [ok_bind, ok_check]
      refine ⟨by simp [m.na, m.nb]; exact hBl, ?_⟩
      have mB : LoMem P R t D [a] (B ++ []) v s.mem := by simpa using m
      have hmv := ok_moveB mB m.nb
      rw [if_pos (by rw [m.nb]; omega)] at hmv
      rw [ok_bind]
      refine hmv.mono ?_
      rintro _ s2 ⟨mem2, rfl, m2⟩
      rw [← bind_assoc, ok_bind]
      refine ok_wrA (s := { s with mem := mem2 }) m2 _ (fun mem3 m3 => ?_)
      rw [ok_pure]
      obtain ⟨Gp, T, hm, hG, _⟩ := m3.ex
      have : Gp = [] := List.eq_nil_of_length_eq_zero (by simpa using hG)
      subst this
      have hdom : Good h lt → ∀ x ∈ B, ∀ y ∈ [a], lt x y = true := by
        intro G x hx y hy
        rw [List.mem_singleton.1 hy]
        exact inv.dom G a rfl x hx
      have inv2 : LoInv h lt O (D ++ B) [a] [] := LoInv.takeB (by simpa using inv) hdom
      refine ⟨D ++ B ++ [a], hp, ?_, ?_, he, ?_, ?_⟩
      · simp only; rw [hm]; simp
      · simpa using inv2.perm
      · intro _ G; simpa using inv2.order G
      · intro _ G; simpa using inv2.sa G

theorem mergeLo_spec (h : Host σ ε) (lt : ε → ε → Bool) (P A B R : List ε) (ssa na ssb nb : Int) (s : St σ ε)
    (hmem : s.mem = P ++ (A ++ (B ++ R))) (hssa : ssa = P.length) (hna : na = A.length)
    (hssb : ssb = (P.length + A.length : Nat)) (hnb : nb = B.length) (hA : A ≠ []) (hB : B ≠ [])
    (hmax : A.length < 2 ^ 59) (hmax2 : A.length + B.length ≤ 2 ^ 60 )
    (sa : Good h lt → SortedBy lt A) (sb : Good h lt → SortedBy lt B)
    (dom : Good h lt → ∀ x, A.getLast? = some x → ∀ b ∈ B, lt b x = true)
    (first : Good h lt → ∀ b, B.head? = some b → ∀ a ∈ A, lt b a = true) :
    Ok (mergeLo h ssa na ssb nb) s (fun r s' => ∃ W, Merged h lt P (A ++ B) R s r s' W) := by
  have hAl : 0 < A.length := List.length_pos_iff.2 hA
  match B, hB with
  | b :: B, _ =>
    unfold mergeLo
    rw [ok_bind, ok_check]
    refine ⟨by simp [hna, hnb, hssa, hssb]; omega, ?_⟩
    rw [ok_bind]
    refine (getmem_spec h na s (by omega)).mono ?_
    rintro r s1 ⟨e1, e2, e3, e4, e5⟩
    match r, e4, e5 with
    | none, e4, _ =>
      simp only [ok_pure]
      exact ⟨A ++ b :: B, e2, by rw [e1, hmem]; simp, List.Perm.refl _, e4, by simp, by simp⟩
    | some _, e4, e5 =>
      simp only
      rw [ok_bind, ok_load]
      have hlen : s1.mem.length = P.length + (A.length + (B.length + 1 + R.length)) := by
        rw [e1, hmem]; simp; omega
      refine ⟨⟨by omega, by omega, by omega, e5 rfl⟩, ?_⟩
      have ht : (s1.mem.drop ssa.toNat).take na.toNat = A := by
        rw [e1, hmem, hssa, hna, Int.toNat_natCast, Int.toNat_natCast, List.drop_left, List.take_left]
      rw [ht]
      have m0 : LoMem P R A [] A (b :: B) { dest := ssa, sa := 0, na := na, sb := ssb, nb := nb } s1.mem :=
        ⟨⟨A, [], by rw [e1, hmem]; simp, rfl, rfl, rfl⟩, hna, hnb, by simp [hssa], by simp [hssb]⟩
      have inv0 : LoInv h lt (A ++ b :: B) [] A (b :: B) :=
        ⟨List.Perm.refl _, sa, sb, fun _ => SameOrder.refl _, dom⟩
      have inv1 : LoInv h lt (A ++ b :: B) [b] A B := by
        have := LoInv.takeB (X := [b]) (B := B) inv0 (by
          intro G x hx
          rw [List.mem_singleton.1 hx]
          exact first G b rfl)
        simpa using this
      rw [← bind_assoc, ok_bind]
      refine ok_wrB m0 _ (fun mem2 m1 => ?_)
      simp only [List.nil_append] at m1
      have e4' : s1.err = s.err := e4
      have hnb1 : nb - 1 = B.length := by rw [hnb]; simp
      split
      · refine loExit_spec h lt P R _ A s _ _ _ ⟨[b], A, B, m1, inv1, e2, e4', Or.inr ?_⟩
        exact List.eq_nil_of_length_eq_zero (by omega)
      · rename_i h0
        split
        · rename_i h1
          refine loExit_spec h lt P R _ A s _ _ _ ⟨[b], A, B, m1, inv1, e2, e4', by omega, ?_⟩
          exact List.ne_nil_of_length_pos (by omega)
        · rename_i h1
          simp only [List.length_cons] at hmax2
          rw [ok_bind, ok_get, ok_bind]
          refine (loOuter_spec h lt P R (A ++ b :: B) A _ _ _ (A.length + B.length + 1) _
            ⟨[b], A, B, m1, inv1, rfl, rfl, by omega, by omega, by omega⟩ ?_ ?_).mono ?_
          · rw [hna, hnb1]; omega
          · omega
          · rintro ⟨e, v⟩ s3 ho
            exact loExit_spec h lt P R _ A s _ _ _ (ho.from e2 e4')

end Verif.CPySort
