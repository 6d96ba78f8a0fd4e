import Verif.Model.Nodes
import Verif.Spec.Nodes
import Mathlib.Tactic.SplitIfs
import Mathlib.Tactic.Tauto
import Mathlib.Data.List.Perm.Subperm

/-! # Rings of nodes -/

namespace Verif.Nodes

variable {α : Type}

@[simp] theorem put_self {β : Type} (f : Nat → β) (a : Nat) (b : β) : put f a b a = b := by simp [put]

theorem put_ne {β : Type} (f : Nat → β) {a x : Nat} (b : β) (h : x ≠ a) : put f a b x = f x := by simp [put, h]

/-- From `x` through the nodes `l` to `z`, forwards and backwards. -/
def Linked (n p : Nat → Nat) : Nat → List Nat → Nat → Prop
  | x, [], z => n x = z ∧ p z = x
  | x, y :: l, z => n x = y ∧ p y = x ∧ Linked n p y l z

theorem Linked.append {n p : Nat → Nat} : ∀ {x : Nat} {l : List Nat} {y : Nat} {r : List Nat} {z : Nat},
    Linked n p x (l ++ y :: r) z ↔ Linked n p x l y ∧ Linked n p y r z := by
  intro x l
  induction l generalizing x with
  | nil => intro y r z; simp [Linked, and_assoc]
  | cons a l ih => intro y r z; simp [Linked, ih, and_assoc]

theorem Linked.frame {n p n' p' : Nat → Nat} : ∀ {x : Nat} {l : List Nat} {z : Nat}, Linked n p x l z →
    (∀ a ∈ x :: l, n' a = n a) → (∀ a ∈ l ++ [z], p' a = p a) → Linked n' p' x l z := by
  intro x l
  induction l generalizing x with
  | nil =>
    intro z h hn hp
    exact ⟨by rw [hn x (by simp)]; exact h.1, by rw [hp z (by simp)]; exact h.2⟩
  | cons a l ih =>
    intro z h hn hp
    exact ⟨by rw [hn x (by simp)]; exact h.1, by rw [hp a (by simp)]; exact h.2.1,
      ih h.2.2 (fun b hb => hn b (List.mem_cons_of_mem _ hb)) (fun b hb => hp b (by simp at hb ⊢; tauto))⟩

/-- The node before the end is the last one. -/
theorem Linked.last {n p : Nat → Nat} : ∀ {x : Nat} {l : List Nat} {z : Nat}, Linked n p x l z → p z ∈ x :: l := by
  intro x l
  induction l generalizing x with
  | nil => intro z h; simp [h.2]
  | cons a l ih => intro z h; exact List.mem_cons_of_mem _ (ih h.2.2)

/-- Let the last node of a segment point elsewhere. -/
theorem Linked.retarget {n p : Nat → Nat} {t : Nat} : ∀ {x : Nat} {l : List Nat} {b : Nat}, Linked n p x l b →
    (x :: l).Nodup → t ∉ l → Linked (put n (p b) t) (put p t (p b)) x l t := by
  intro x l
  induction l generalizing x with
  | nil =>
    intro b h _ _
    exact ⟨by rw [h.2, put_self], by rw [put_self, h.2]⟩
  | cons a l ih =>
    intro b h hd ht
    have hl := h.2.2.last
    have hx : x ≠ p b := by
      rintro rfl
      exact (List.nodup_cons.mp hd).1 hl
    refine ⟨by rw [put_ne _ _ hx]; exact h.1, ?_, ih h.2.2 (List.nodup_cons.mp hd).2 (fun hm => ht (List.mem_cons_of_mem _ hm))⟩
    rw [put_ne _ _ (by rintro rfl; exact ht (by simp))]
    exact h.2.1

/-- The ring `h`, `l` with the node `a` linked in between `l` and `r`. -/
theorem Linked.hook {n p : Nat → Nat} {h a : Nat} {l r : List Nat} (hl : Linked n p h (l ++ r) h)
    (hd : (h :: (l ++ r)).Nodup) (ha : a ∉ h :: (l ++ r)) {pos : Nat} (hpos : pos = r.headD h) :
    Linked (put (put n a pos) (p pos) a) (put (put p a (p pos)) pos a) h (l ++ a :: r) h ∧
      p pos ∈ h :: l := by
  have key : ∀ {z : Nat}, Linked n p h l z → (h :: l).Nodup → a ∉ h :: l → a ≠ z → z ∉ l →
      Linked (put (put n a z) (p z) a) (put (put p a (p z)) z a) h l a ∧
      Linked (put (put n a z) (p z) a) (put (put p a (p z)) z a) a [] z := by
    intro z hz hd ha haz hzl
    have hlast := hz.last
    have hpa : a ≠ p z := fun e => ha (e ▸ hlast)
    have h1 := hz.retarget (t := a) hd (fun hm => ha (List.mem_cons_of_mem _ hm))
    refine ⟨h1.frame ?_ ?_, ?_, by simp⟩
    · intro b hb
      have hba : b ≠ a := by rintro rfl; exact ha hb
      by_cases hbp : b = p z
      · subst hbp; simp
      · rw [put_ne _ _ hbp, put_ne _ _ hbp, put_ne _ _ hba]
    · intro b hb
      rcases List.mem_append.mp hb with hb | hb
      · have hbz : b ≠ z := by rintro rfl; exact hzl hb
        rw [put_ne _ _ hbz]
      · simp only [List.mem_singleton] at hb
        subst hb
        rw [put_ne _ _ haz]
    · rw [put_ne _ _ hpa, put_self]
  cases r with
  | nil =>
    simp only [List.append_nil, List.headD_nil] at *
    subst hpos
    obtain ⟨k1, k2⟩ := key hl hd ha (fun e => ha (by simp [e])) (List.nodup_cons.mp hd).1
    exact ⟨Linked.append.mpr ⟨k1, k2⟩, hl.last⟩
  | cons y r =>
    simp only [List.headD_cons] at hpos
    subst hpos
    obtain ⟨hl1, hl2⟩ := Linked.append.mp hl
    have hd1 : (h :: l).Nodup := hd.sublist (by simp)
    have hd2 : (pos :: r).Nodup := (List.nodup_append.mp (List.nodup_cons.mp hd).2).2.1
    have hyl : pos ∉ l := fun hm => (List.nodup_append.mp (List.nodup_cons.mp hd).2).2.2 pos hm pos (by simp) rfl
    have hyh : pos ≠ h := by rintro rfl; exact (List.nodup_cons.mp hd).1 (by simp)
    obtain ⟨k1, k2⟩ := key hl1 hd1 (fun hm => ha (by simp at hm ⊢; tauto)) (fun e => ha (by simp [e])) hyl
    have hlast := hl1.last
    refine ⟨Linked.append.mpr ⟨k1, k2.1, k2.2, hl2.frame ?_ ?_⟩, hlast⟩
    · intro b hb
      have hbp : b ≠ p pos := by
        rintro rfl
        rcases List.mem_cons.mp hlast with e | e
        · rw [e] at hb
          exact (List.nodup_cons.mp hd).1 (List.mem_append_right _ hb)
        · exact (List.nodup_append.mp (List.nodup_cons.mp hd).2).2.2 _ e _ hb rfl
      have hba : b ≠ a := by rintro rfl; exact ha (by simp at hb ⊢; tauto)
      rw [put_ne _ _ hbp, put_ne _ _ hba]
    · intro b hb
      have hbz : b ≠ pos := by
        rintro rfl
        rcases List.mem_append.mp hb with e | e
        · exact (List.nodup_cons.mp hd2).1 e
        · exact hyh (by simpa using e)
      have hba : b ≠ a := by rintro rfl; exact ha (by simp at hb ⊢; tauto)
      rw [put_ne _ _ hbz, put_ne _ _ hba]

/-- The ring with the node `b` taken out. -/
theorem Linked.unhook {n p : Nat → Nat} {h b : Nat} {l r : List Nat} (hl : Linked n p h (l ++ b :: r) h)
    (hd : (h :: (l ++ b :: r)).Nodup) :
    Linked (put n (p b) (n b)) (put p (n b) (p b)) h (l ++ r) h ∧ p b ∈ h :: l ∧ n b = r.headD h := by
  obtain ⟨hl1, hl2⟩ := Linked.append.mp hl
  have hd1 : (h :: l).Nodup := hd.sublist (by simp)
  have hlast := hl1.last
  cases r with
  | nil =>
    have hn : n b = h := hl2.1
    refine ⟨?_, hlast, by simpa using hn⟩
    rw [hn, List.append_nil]
    exact hl1.retarget hd1 (List.nodup_cons.mp hd1).1
  | cons y r =>
    have hn : n b = y := hl2.1
    have hsub : (l ++ b :: y :: r).Nodup := (List.nodup_cons.mp hd).2
    have hyl : y ∉ l := fun hm => (List.nodup_append.mp hsub).2.2 y hm y (by simp) rfl
    have hyh : y ≠ h := by rintro rfl; exact (List.nodup_cons.mp hd).1 (by simp)
    have hyr : y ∉ r := (List.nodup_cons.mp (List.nodup_cons.mp (List.nodup_append.mp hsub).2.1).2).1
    refine ⟨?_, hlast, by simpa using hn⟩
    rw [hn]
    refine Linked.append.mpr ⟨hl1.retarget hd1 hyl, hl2.2.2.frame ?_ ?_⟩
    · intro c hc
      refine put_ne _ _ ?_
      rintro rfl
      rcases List.mem_cons.mp hlast with e | e
      · rw [e] at hc
        exact (List.nodup_cons.mp hd).1 (List.mem_append_right _ (List.mem_cons_of_mem _ hc))
      · exact (List.nodup_append.mp hsub).2.2 _ e _ (List.mem_cons_of_mem _ hc) rfl
    · intro c hc
      refine put_ne _ _ ?_
      rintro rfl
      rcases List.mem_append.mp hc with e | e
      · exact hyr e
      · exact hyh (by simpa using e)

/-- `xs` are the nodes of the ring with header `h`. -/
structure Rep (w : World α) (h : Nat) (xs : List (Nat × α)) : Prop where
  linked : Linked w.next w.prev h (xs.map (·.1)) h
  nodup : (h :: xs.map (·.1)).Nodup
  live : ∀ a ∈ h :: xs.map (·.1), w.live a = true
  vals : ∀ x ∈ xs, w.val x.1 = some x.2
  header : w.val h = none
  size : w.size h = xs.length
  low : ∀ a ∈ h :: xs.map (·.1), a < w.fresh

/-- Only cells in `S` and new ones differ. -/
structure Within (S : List Nat) (w w' : World α) : Prop where
  next : ∀ a, a < w.fresh → a ∉ S → w'.next a = w.next a
  prev : ∀ a, a < w.fresh → a ∉ S → w'.prev a = w.prev a
  val : ∀ a, a < w.fresh → a ∉ S → w'.val a = w.val a
  live : ∀ a, a < w.fresh → a ∉ S → w'.live a = w.live a
  size : ∀ a, a < w.fresh → a ∉ S → w'.size a = w.size a
  fresh : w.fresh ≤ w'.fresh
  objs : w'.objs = w.objs

theorem Within.refl (S : List Nat) (w : World α) : Within S w w :=
  ⟨fun _ _ _ => rfl, fun _ _ _ => rfl, fun _ _ _ => rfl, fun _ _ _ => rfl, fun _ _ _ => rfl, Nat.le_refl _, rfl⟩

/-- The ring `h`, `xs` has become `h`, `xs'`, and nothing else has changed. -/
structure Turns (h : Nat) (w : World α) (xs : List (Nat × α)) (w' : World α) (xs' : List (Nat × α)) : Prop where
  rep : Rep w' h xs'
  within : Within (h :: xs.map (·.1)) w w'
  ids : ∀ a ∈ xs'.map (·.1), a ∈ xs.map (·.1) ∨ w.fresh ≤ a

theorem Turns.refl {h : Nat} {w : World α} {xs : List (Nat × α)} (hr : Rep w h xs) : Turns h w xs w xs :=
  ⟨hr, .refl _ _, fun _ ha => .inl ha⟩

theorem Turns.trans {h : Nat} {w w' w'' : World α} {xs xs' xs'' : List (Nat × α)} (h1 : Turns h w xs w' xs')
    (h2 : Turns h w' xs' w'' xs'') : Turns h w xs w'' xs'' := by
  have out : ∀ a, a < w.fresh → a ∉ h :: xs.map (·.1) → a < w'.fresh ∧ a ∉ h :: xs'.map (·.1) := by
    intro a ha hS
    refine ⟨Nat.lt_of_lt_of_le ha h1.within.fresh, ?_⟩
    intro hm
    rcases List.mem_cons.mp hm with e | e
    · exact hS (by simp [e])
    · rcases h1.ids a e with e | e
      · exact hS (List.mem_cons_of_mem _ e)
      · omega
  refine ⟨h2.rep, ⟨?_, ?_, ?_, ?_, ?_, Nat.le_trans h1.within.fresh h2.within.fresh, by rw [h2.within.objs, h1.within.objs]⟩,
    ?_⟩
  · intro a ha hS; rw [h2.within.next a (out a ha hS).1 (out a ha hS).2, h1.within.next a ha hS]
  · intro a ha hS; rw [h2.within.prev a (out a ha hS).1 (out a ha hS).2, h1.within.prev a ha hS]
  · intro a ha hS; rw [h2.within.val a (out a ha hS).1 (out a ha hS).2, h1.within.val a ha hS]
  · intro a ha hS; rw [h2.within.live a (out a ha hS).1 (out a ha hS).2, h1.within.live a ha hS]
  · intro a ha hS; rw [h2.within.size a (out a ha hS).1 (out a ha hS).2, h1.within.size a ha hS]
  · intro a ha
    rcases h2.ids a ha with e | e
    · exact h1.ids a e
    · exact .inr (Nat.le_trans h1.within.fresh e)

theorem Rep.insert {w : World α} {h : Nat} {l r : List (Nat × α)} (hr : Rep w h (l ++ r)) (v : α) :
    ∃ w', Nodes.insert w h ((r.map (·.1)).headD h) v = .ok w' ∧
      Turns h w (l ++ r) w' (l ++ (w.fresh, v) :: r) ∧ w'.fresh = w.fresh + 1 := by
  have hfr : ∀ a ∈ h :: (l ++ r).map (·.1), a ≠ w.fresh := fun a ha => by have := hr.low a ha; omega
  have hmem : ((r.map (·.1)).headD h) ∈ h :: (l ++ r).map (·.1) := by
    cases r <;> simp
  generalize hp : ((r.map (·.1)).headD h) = pos at hmem
  have hlk := hr.linked
  have hnd := hr.nodup
  rw [List.map_append] at hlk hnd
  obtain ⟨k1, k2⟩ := hlk.hook (a := w.fresh) hnd (fun hm => hfr _ (by rw [List.map_append]; exact hm) rfl) hp.symm
  have k2' : w.prev pos ∈ h :: (l ++ r).map (·.1) := by
    rw [List.map_append]
    exact (List.cons_subset_cons h (List.subset_append_left _ _)) k2
  have l1 : put w.live w.fresh true pos = true := by rw [put_ne _ _ (hfr _ hmem)]; exact hr.live _ hmem
  have l2 : put w.live w.fresh true (w.prev pos) = true := by rw [put_ne _ _ (hfr _ k2')]; exact hr.live _ k2'
  have e : Nodes.insert w h pos v = .ok { w with
      next := put (put w.next w.fresh pos) (w.prev pos) w.fresh
      prev := put (put w.prev w.fresh (w.prev pos)) pos w.fresh
      val := put w.val w.fresh (some v)
      live := put w.live w.fresh true
      size := put w.size h (w.size h + 1)
      fresh := w.fresh + 1 } := by
    simp only [Nodes.insert, Nodes.hook, put_self, l1, l2, Bool.and_self, if_true]
  refine ⟨_, e, ⟨⟨?_, ?_, ?_, ?_, ?_, ?_, ?_⟩, ⟨?_, ?_, ?_, ?_, ?_, ?_, rfl⟩, ?_⟩, rfl⟩
  · simpa using k1
  · have : (h :: (l.map (·.1) ++ w.fresh :: r.map (·.1))).Nodup := by
      refine (List.Perm.nodup_iff ?_).mp (List.nodup_cons.mpr ⟨fun hm => hfr _ (by rw [List.map_append]; exact hm) rfl, hnd⟩)
      refine (List.Perm.swap h w.fresh _).trans (List.Perm.cons h ?_)
      exact List.perm_middle.symm
    simpa using this
  · intro a ha
    by_cases e : a = w.fresh
    · subst e; simp
    · simp only [put_ne _ _ e]
      refine hr.live a ?_
      simp only [List.map_append, List.map_cons, List.mem_cons, List.mem_append] at ha ⊢
      tauto
  · intro x hx
    rcases List.mem_append.mp hx with hx | hx
    · simp only [put_ne _ _ (hfr x.1 (by simp only [List.mem_cons, List.mem_map]; exact .inr ⟨x, by simp [hx], rfl⟩))]
      exact hr.vals x (by simp [hx])
    · rcases List.mem_cons.mp hx with hx | hx
      · subst hx; simp
      · simp only [put_ne _ _ (hfr x.1 (by simp only [List.mem_cons, List.mem_map]; exact .inr ⟨x, by simp [hx], rfl⟩))]
        exact hr.vals x (by simp [hx])
  · simp only [put_ne _ _ (hfr h (by simp))]
    exact hr.header
  · have := hr.size
    simp only [List.length_append] at this
    simp only [put_self, List.length_append, List.length_cons, this]
    omega
  · intro a ha
    by_cases e : a = w.fresh
    · subst e; simp
    · refine Nat.lt_succ_of_lt (hr.low a ?_)
      simp only [List.map_append, List.map_cons, List.mem_cons, List.mem_append] at ha ⊢
      tauto
  · intro a ha hS
    have e1 : a ≠ w.prev pos := by rintro rfl; exact hS k2'
    simp only [put_ne _ _ e1, put_ne _ _ (show a ≠ w.fresh by omega)]
  · intro a ha hS
    have e1 : a ≠ pos := by rintro rfl; exact hS hmem
    simp only [put_ne _ _ e1, put_ne _ _ (show a ≠ w.fresh by omega)]
  · intro a ha hS
    simp only [put_ne _ _ (show a ≠ w.fresh by omega)]
  · intro a ha hS
    simp only [put_ne _ _ (show a ≠ w.fresh by omega)]
  · intro a ha hS
    have e1 : a ≠ h := by rintro rfl; exact hS (by simp)
    simp only [put_ne _ _ e1]
  · simp
  · intro a ha
    simp only [List.map_append, List.map_cons, List.mem_cons, List.mem_append] at ha ⊢
    rcases ha with ha | rfl | ha
    · exact .inl (.inl ha)
    · exact .inr (Nat.le_refl _)
    · exact .inl (.inr ha)

theorem Rep.erase {w : World α} {h : Nat} {l r : List (Nat × α)} {x : Nat × α} (hr : Rep w h (l ++ x :: r)) :
    ∃ w', Nodes.erase w h x.1 = .ok w' ∧ Turns h w (l ++ x :: r) w' (l ++ r) ∧ w'.fresh = w.fresh ∧
      w.next x.1 = (r.map (·.1)).headD h := by
  have hlk := hr.linked
  have hnd := hr.nodup
  rw [List.map_append, List.map_cons] at hlk hnd
  obtain ⟨k1, k2, k3⟩ := hlk.unhook hnd
  have hall : h :: (l ++ x :: r).map (·.1) = h :: (l.map (·.1) ++ x.1 :: r.map (·.1)) := by simp
  have mx : x.1 ∈ h :: (l ++ x :: r).map (·.1) := by simp
  have mp : w.prev x.1 ∈ h :: (l ++ x :: r).map (·.1) := by
    rw [hall]; exact (List.cons_subset_cons h (List.subset_append_left _ _)) k2
  have mn : w.next x.1 ∈ h :: (l ++ x :: r).map (·.1) := by
    rw [k3, hall]
    cases r <;> simp
  have hxh : x.1 ≠ h := by rintro e; exact (List.nodup_cons.mp hnd).1 (by simp [e])
  have hsub : (l.map (·.1) ++ x.1 :: r.map (·.1)).Nodup := (List.nodup_cons.mp hnd).2
  have hx : x.1 ∉ l.map (·.1) ++ r.map (·.1) := by
    have := (List.perm_middle (a := x.1) (l₁ := l.map (·.1)) (l₂ := r.map (·.1))).nodup_iff.mp hsub
    exact (List.nodup_cons.mp this).1
  have e : Nodes.erase w h x.1 = .ok { w with
      next := put w.next (w.prev x.1) (w.next x.1)
      prev := put w.prev (w.next x.1) (w.prev x.1)
      live := put w.live x.1 false
      size := put w.size h (w.size h - 1) } := by
    simp only [Nodes.erase, hxh, if_false, Nodes.unhook, hr.live _ mx, hr.live _ mp, hr.live _ mn, Bool.and_self, if_true]
  refine ⟨_, e,
    ⟨⟨?_, ?_, ?_, ?_, hr.header, ?_, ?_⟩, ⟨?_, ?_, ?_, ?_, ?_, ?_, rfl⟩, ?_⟩, rfl, k3⟩
  · simpa using k1
  · refine hr.nodup.sublist ?_
    simp
  · intro a ha
    have hm : a ∈ h :: (l ++ x :: r).map (·.1) := by
      simp only [List.map_append, List.map_cons, List.mem_cons, List.mem_append] at ha ⊢
      tauto
    have e : a ≠ x.1 := by
      rintro rfl
      rcases List.mem_cons.mp ha with e | e
      · exact hxh e
      · exact hx (by simpa using e)
    simp only [put_ne _ _ e]
    exact hr.live a hm
  · intro y hy
    refine hr.vals y ?_
    simp only [List.mem_append, List.mem_cons] at hy ⊢
    tauto
  · have := hr.size
    simp only [List.length_append, List.length_cons] at this
    simp only [put_self, List.length_append, this]
    omega
  · intro a ha
    refine hr.low a ?_
    simp only [List.map_append, List.map_cons, List.mem_cons, List.mem_append] at ha ⊢
    tauto
  · intro a _ hS
    exact put_ne _ _ (by rintro rfl; exact hS mp)
  · intro a _ hS
    exact put_ne _ _ (by rintro rfl; exact hS mn)
  · intro a _ _; rfl
  · intro a _ hS
    exact put_ne _ _ (by rintro rfl; exact hS mx)
  · intro a _ hS
    exact put_ne _ _ (by rintro rfl; exact hS (by simp))
  · exact Nat.le_refl _
  · intro a ha
    refine .inl ?_
    simp only [List.map_append, List.map_cons, List.mem_cons, List.mem_append] at ha ⊢
    tauto

/-- Values may be changed. -/
theorem Rep.revalue {w : World α} {h : Nat} {xs ys : List (Nat × α)} (hr : Rep w h xs) {f : Nat → Option α}
    (hids : ys.map (·.1) = xs.map (·.1)) (hf : ∀ y ∈ ys, f y.1 = some y.2) (hh : ∀ a, a ∉ xs.map (·.1) → f a = w.val a) :
    Turns h w xs { w with val := f } ys := by
  refine ⟨⟨by rw [hids]; exact hr.linked, by rw [hids]; exact hr.nodup, by rw [hids]; exact hr.live, hf, ?_, ?_,
    by rw [hids]; exact hr.low⟩, ⟨fun _ _ _ => rfl, fun _ _ _ => rfl, ?_, fun _ _ _ => rfl, fun _ _ _ => rfl, Nat.le_refl _, rfl⟩,
    ?_⟩
  · show f h = none
    rw [hh h (List.nodup_cons.mp hr.nodup).1]
    exact hr.header
  · have : ys.length = xs.length := by simpa using congrArg List.length hids
    show w.size h = ys.length
    rw [this]
    exact hr.size
  · intro a _ hS
    exact hh a (fun hm => hS (List.mem_cons_of_mem _ hm))
  · intro a ha
    rw [hids] at ha
    exact .inl ha

theorem Linked.around {n p : Nat → Nat} {x y z : Nat} {l r : List Nat} (h : Linked n p x (l ++ y :: r) z) :
    n y = r.headD z ∧ p (r.headD z) = y := by
  have h2 := (Linked.append.mp h).2
  cases r with
  | nil => exact h2
  | cons a r => exact ⟨h2.1, h2.2.1⟩

theorem Linked.first {n p : Nat → Nat} {x z : Nat} {l : List Nat} (h : Linked n p x l z) : n x = l.headD z := by
  cases l with
  | nil => exact h.1
  | cons a l => exact h.1

/-- A list of distinct numbers below a bound is no longer than the bound. -/
theorem length_low {l : List Nat} (hd : l.Nodup) {b : Nat} (h : ∀ a ∈ l, a < b) : l.length ≤ b := by
  have := (List.subperm_of_subset hd (l₂ := List.range b) (fun a ha => List.mem_range.mpr (h a ha))).length_le
  simpa using this

theorem Rep.short {w : World α} {h : Nat} {xs : List (Nat × α)} (hr : Rep w h xs) : xs.length < w.fresh := by
  have := length_low hr.nodup hr.low
  simp only [List.length_cons, List.length_map] at this
  omega

theorem forward_linked {w : World α} : ∀ {x : Nat} {l : List Nat} {z : Nat}, Linked w.next w.prev x l z →
    (∀ a ∈ x :: l, w.live a = true) → ∀ {k : Nat}, k ≤ l.length → forward w (k + 1) x = .ok ((l.drop k).headD z) := by
  intro x l
  induction l generalizing x with
  | nil =>
    intro z h hl k hk
    obtain rfl : k = 0 := by simpa using hk
    simp [forward, hl x (by simp), h.1]
  | cons a l ih =>
    intro z h hl k hk
    cases k with
    | zero => simp [forward, hl x (by simp), h.1]
    | succ k =>
      rw [forward, if_pos (hl x (by simp)), h.1]
      exact ih h.2.2 (fun b hb => hl b (List.mem_cons_of_mem _ hb)) (by simpa using hk)

theorem backward_linked {w : World α} : ∀ {l : List Nat} {x z : Nat}, Linked w.next w.prev x l z →
    (∀ a ∈ l ++ [z], w.live a = true) → ∀ {k : Nat}, k ≤ l.length →
    backward w k z = .ok ((l.drop (l.length - k)).headD z) := by
  intro l
  induction hn : l.length generalizing l with
  | zero =>
    intro x z h hl k hk
    obtain rfl : k = 0 := by omega
    have : l = [] := List.length_eq_zero_iff.mp hn
    subst this
    simp [backward]
  | succ n ih =>
    intro x z h hl k hk
    cases k with
    | zero => simp [backward, ← hn]
    | succ k =>
      rcases List.eq_nil_or_concat l with rfl | ⟨l', y, rfl⟩
      · simp at hn
      · simp only [List.concat_eq_append] at *
        have hlen : l'.length = n := by simpa using hn
        obtain ⟨h1, h2⟩ := Linked.append.mp h
        rw [backward, if_pos (hl z (by simp)), h2.2]
        rw [ih hlen h1 (fun a ha => hl a (List.mem_append_left _ ha)) (by omega)]
        have : n + 1 - (k + 1) ≤ l'.length := by omega
        rw [List.drop_append_of_le_length this]
        have e : n + 1 - (k + 1) = n - k := by omega
        rw [e]
        cases List.drop (n - k) l' <;> simp

theorem Rep.at' {w : World α} {h : Nat} {xs : List (Nat × α)} (hr : Rep w h xs) (i : Nat) :
    Nodes.at' w h i = .ok (((xs.map (·.1)).drop i).headD h) := by
  unfold Nodes.at'
  rw [hr.size]
  split_ifs with h1 h2
  · rw [List.drop_eq_nil_of_le (by simpa using h1)]
    simp
  · rw [backward_linked hr.linked (fun a ha => hr.live a (by simp only [List.mem_append, List.mem_cons] at ha ⊢; tauto))
      (k := xs.length - i) (by simp)]
    have : (xs.map (·.1)).length - (xs.length - i) = i := by
      rw [List.length_map]; omega
    rw [this]
  · exact forward_linked hr.linked hr.live (by simp; omega)

theorem chain_linked {w : World α} {z : Nat} : ∀ {x : Nat} {xs : List (Nat × α)},
    Linked w.next w.prev x (xs.map (·.1)) z → z ∉ xs.map (·.1) → (∀ a ∈ xs.map (·.1), w.live a = true) →
    (∀ y ∈ xs, w.val y.1 = some y.2) → ∀ {k : Nat}, xs.length < k → chain w z k (w.next x) = .ok xs := by
  intro x xs
  induction xs generalizing x with
  | nil =>
    intro h _ _ _ k hk
    cases k with
    | zero => simp at hk
    | succ k => simp [chain, h.1]
  | cons y xs ih =>
    intro h hz hl hv k hk
    cases k with
    | zero => simp at hk
    | succ k =>
      have hy : w.next x = y.1 := h.1
      have hne : y.1 ≠ z := by rintro rfl; exact hz (by simp)
      rw [chain, hy, if_neg hne]
      simp only [deref, hl y.1 (by simp), hv y (by simp), if_true]
      rw [ih h.2.2 (fun hm => hz (List.mem_cons_of_mem _ hm)) (fun a ha => hl a (List.mem_cons_of_mem _ ha))
        (fun b hb => hv b (List.mem_cons_of_mem _ hb)) (by simpa using hk)]

theorem Rep.nodes {w : World α} {h : Nat} {xs : List (Nat × α)} (hr : Rep w h xs) : Nodes.nodes w h = .ok xs := by
  rw [Nodes.nodes, if_pos (hr.live h (by simp))]
  exact chain_linked hr.linked (List.nodup_cons.mp hr.nodup).1 (fun a ha => hr.live a (List.mem_cons_of_mem _ ha)) hr.vals
    (by have := hr.short; omega)

theorem Rep.elems {w : World α} {h : Nat} {xs : List (Nat × α)} (hr : Rep w h xs) :
    Nodes.elems w h = .ok (xs.map (·.2)) := by
  rw [Nodes.elems, hr.nodes]

theorem Rep.insertAll {h : Nat} : ∀ (vs : List α) {w : World α} {xs : List (Nat × α)}, Rep w h xs →
    ∃ w' ys, Nodes.insertAll w h h vs = .ok w' ∧ Turns h w xs w' (xs ++ ys) ∧ ys.map (·.2) = vs := by
  intro vs
  induction vs with
  | nil => intro w xs hr; exact ⟨w, [], rfl, by simpa using Turns.refl hr, rfl⟩
  | cons v vs ih =>
    intro w xs hr
    obtain ⟨w1, e1, t1, _⟩ := (show Rep w h (xs ++ []) by simpa using hr).insert v
    simp only [List.map_nil, List.headD_nil, List.append_nil] at e1 t1
    obtain ⟨w2, ys, e2, t2, hy⟩ := ih t1.rep
    refine ⟨w2, (w.fresh, v) :: ys, ?_, ?_, by simp [hy]⟩
    · rw [Nodes.insertAll, e1]
      exact e2
    · have := t1.trans t2
      simpa using this

theorem headD_ne {h : Nat} {x : Nat × α} {l m r : List (Nat × α)} (hd : (h :: (l ++ (x :: m ++ r)).map (·.1)).Nodup) :
    x.1 ≠ (r.map (·.1)).headD h := by
  intro e
  cases r with
  | nil =>
    simp only [List.map_nil, List.headD_nil] at e
    exact (List.nodup_cons.mp hd).1 (by simp [e])
  | cons y r =>
    simp only [List.map_cons, List.headD_cons] at e
    have h1 := (List.nodup_cons.mp hd).2
    rw [List.map_append] at h1
    have h2 := (List.nodup_append.mp h1).2.1
    simp only [List.cons_append, List.map_cons, List.map_append] at h2
    exact (List.nodup_cons.mp h2).1 (by simp [e])

theorem Rep.eraseTo {h : Nat} {l r : List (Nat × α)} : ∀ (m : List (Nat × α)) {w : World α}, Rep w h (l ++ (m ++ r)) →
    ∀ {k : Nat}, m.length < k →
    ∃ w', Nodes.eraseTo w h ((r.map (·.1)).headD h) k (((m ++ r).map (·.1)).headD h) = .ok w' ∧
      Turns h w (l ++ (m ++ r)) w' (l ++ r) ∧ w'.fresh = w.fresh := by
  intro m
  induction m with
  | nil =>
    intro w hr k hk
    cases k with
    | zero => simp at hk
    | succ k => exact ⟨w, by simp [Nodes.eraseTo], by simpa using Turns.refl hr, rfl⟩
  | cons x m ih =>
    intro w hr k hk
    cases k with
    | zero => simp at hk
    | succ k =>
      obtain ⟨w1, e1, t1, f1, n1⟩ := hr.erase
      obtain ⟨w2, e2, t2, f2⟩ := ih t1.rep (k := k) (by simpa using hk)
      refine ⟨w2, ?_, t1.trans t2, by rw [f2, f1]⟩
      simp only [List.cons_append, List.map_cons, List.headD_cons]
      rw [Nodes.eraseTo, if_neg (headD_ne hr.nodup), e1]
      simp only
      rw [n1]
      exact e2

theorem Rep.clear {w : World α} {h : Nat} {xs : List (Nat × α)} (hr : Rep w h xs) :
    ∃ w', Nodes.clear w h = .ok w' ∧ Turns h w xs w' [] := by
  obtain ⟨w', e, t, _⟩ := Rep.eraseTo (l := []) (r := []) xs (w := w) (h := h) (by simpa using hr) (k := w.fresh + 1)
    (by have := hr.short; omega)
  simp only [List.map_nil, List.headD_nil, List.append_nil, List.nil_append] at e t
  refine ⟨w', ?_, t⟩
  rw [Nodes.clear, if_pos (hr.live h (by simp)), hr.linked.first]
  exact e

theorem Rep.store {w : World α} {h : Nat} {l r : List (Nat × α)} {x : Nat × α} (hr : Rep w h (l ++ x :: r)) (v : α) :
    ∃ w', Nodes.store w x.1 v = .ok w' ∧ Turns h w (l ++ x :: r) w' (l ++ (x.1, v) :: r) ∧
      w'.next = w.next ∧ w'.fresh = w.fresh := by
  have e : Nodes.store w x.1 v = .ok { w with val := put w.val x.1 (some v) } := by
    simp only [Nodes.store, hr.live x.1 (by simp), hr.vals x (by simp), if_true]
  refine ⟨_, e, hr.revalue (by simp) ?_ ?_, rfl, rfl⟩
  · have hd := (List.nodup_cons.mp hr.nodup).2
    rw [List.map_append, List.map_cons] at hd
    have hx : x.1 ∉ l.map (·.1) ++ r.map (·.1) := (List.nodup_cons.mp (List.perm_middle.nodup_iff.mp hd)).1
    intro y hy
    by_cases c : y = (x.1, v)
    · subst c; simp
    · have hm : y ∈ l ++ r := by
        simp only [List.mem_append, List.mem_cons] at hy ⊢
        tauto
      have : y.1 ≠ x.1 := by
        intro e
        refine hx ?_
        rw [← List.map_append, ← e]
        exact List.mem_map_of_mem hm
      rw [put_ne _ _ this]
      exact hr.vals y (by simp only [List.mem_append, List.mem_cons] at hm ⊢; tauto)
  · intro a ha
    exact put_ne _ _ (by rintro rfl; exact ha (by simp))

theorem Rep.assign {h : Nat} : ∀ (vs : List α) {l r : List (Nat × α)} {w : World α}, Rep w h (l ++ r) →
    ∃ w' ys, Nodes.assign w h ((r.map (·.1)).headD h) vs = .ok w' ∧ Turns h w (l ++ r) w' (l ++ ys) ∧ ys.map (·.2) = vs := by
  intro vs
  induction vs with
  | nil =>
    intro l r w hr
    obtain ⟨w', e, t, _⟩ := Rep.eraseTo (l := l) (r := []) r (w := w) (h := h) (by simpa using hr) (k := w.fresh + 1)
      (by have := hr.short; simp only [List.length_append] at this; omega)
    simp only [List.map_nil, List.headD_nil, List.append_nil] at e t
    exact ⟨w', [], by rw [Nodes.assign]; exact e, by simpa using t, rfl⟩
  | cons v vs ih =>
    intro l r w hr
    cases r with
    | nil =>
      obtain ⟨w', ys, e, t, hy⟩ := Rep.insertAll (v :: vs) hr
      refine ⟨w', ys, ?_, by simpa using t, hy⟩
      simp only [List.map_nil, List.headD_nil]
      rw [Nodes.assign, if_pos rfl]
      exact e
    | cons x r =>
      obtain ⟨w1, e1, t1, n1, f1⟩ := hr.store v
      have hx : x.1 ≠ h := by rintro e; exact (List.nodup_cons.mp hr.nodup).1 (by simp [e])
      have hnx : w.next x.1 = (r.map (·.1)).headD h := by
        have := hr.linked
        rw [List.map_append, List.map_cons] at this
        exact this.around.1
      obtain ⟨w2, ys, e2, t2, hy⟩ := ih (l := l ++ [(x.1, v)]) (r := r) (w := w1) (by simpa using t1.rep)
      refine ⟨w2, (x.1, v) :: ys, ?_, ?_, by simp [hy]⟩
      · simp only [List.map_cons, List.headD_cons]
        rw [Nodes.assign, if_neg hx, e1]
        simp only
        rw [hnx]
        exact e2
      · have t2' : Turns h w1 (l ++ (x.1, v) :: r) w2 (l ++ (x.1, v) :: ys) := by simpa using t2
        exact t1.trans t2'

theorem Rep.deref {w : World α} {h : Nat} {xs : List (Nat × α)} (hr : Rep w h xs) {x : Nat × α} (hx : x ∈ xs) :
    Nodes.deref w x.1 = .ok x.2 := by
  simp only [Nodes.deref, hr.live x.1 (by simp only [List.mem_cons, List.mem_map]; exact .inr ⟨x, hx, rfl⟩), hr.vals x hx, if_true]

theorem Rep.reverse {h : Nat} : ∀ (k : Nat) {l m r : List (Nat × α)} {w : World α}, Rep w h (l ++ (m ++ r)) → m.length < k →
    ∃ w' m', Nodes.reverse w k (((m ++ r).map (·.1)).headD h) ((r.map (·.1)).headD h) = .ok w' ∧
      Turns h w (l ++ (m ++ r)) w' (l ++ (m' ++ r)) ∧ m'.map (·.2) = (m.map (·.2)).reverse := by
  intro k
  induction k with
  | zero => intro l m r w _ hk; simp at hk
  | succ k ih =>
    intro l m r w hr hk
    have hlast : w.live ((r.map (·.1)).headD h) = true := by
      refine hr.live _ ?_
      cases r <;> simp
    cases m with
    | nil => exact ⟨w, [], by simp [Nodes.reverse], by simpa using Turns.refl hr, rfl⟩
    | cons x m =>
      have hne := headD_ne hr.nodup
      rcases List.eq_nil_or_concat m with rfl | ⟨m0, y, rfl⟩
      · have hp : w.prev ((r.map (·.1)).headD h) = x.1 := by
          have := hr.linked
          simp only [List.map_append, List.map_cons, List.cons_append, List.nil_append] at this
          exact this.around.2
        refine ⟨w, [x], ?_, by simpa using Turns.refl hr, rfl⟩
        simp only [List.cons_append, List.map_cons, List.headD_cons]
        rw [Nodes.reverse, if_neg hne, hlast, hp]
        simp
      · simp only [List.concat_eq_append] at *
        have hlk := hr.linked
        have hp : w.prev ((r.map (·.1)).headD h) = y.1 := by
          have : (l ++ (x :: (m0 ++ [y]) ++ r)).map (·.1) = (l ++ x :: m0).map (·.1) ++ y.1 :: r.map (·.1) := by simp
          rw [this] at hlk
          exact hlk.around.2
        have hn : w.next x.1 = ((m0 ++ (y.1, x.2) :: r).map (·.1)).headD h := by
          have : (l ++ (x :: (m0 ++ [y]) ++ r)).map (·.1) = l.map (·.1) ++ x.1 :: (m0 ++ (y.1, x.2) :: r).map (·.1) := by simp
          rw [this] at hlk
          exact hlk.around.1
        have hd := hr.nodup
        have hsplit : (l ++ (x :: (m0 ++ [y]) ++ r)).map (·.1) = l.map (·.1) ++ x.1 :: (m0.map (·.1) ++ y.1 :: r.map (·.1)) := by
          simp
        rw [hsplit] at hd
        have hx : x.1 ∉ l.map (·.1) ++ (m0.map (·.1) ++ y.1 :: r.map (·.1)) :=
          (List.nodup_cons.mp (List.perm_middle.nodup_iff.mp (List.nodup_cons.mp hd).2)).1
        have hy : y.1 ∉ l.map (·.1) ++ x.1 :: (m0.map (·.1) ++ r.map (·.1)) := by
          have h2 := (List.nodup_cons.mp hd).2
          have h3 : l.map (·.1) ++ x.1 :: (m0.map (·.1) ++ y.1 :: r.map (·.1)) =
              (l.map (·.1) ++ x.1 :: m0.map (·.1)) ++ y.1 :: r.map (·.1) := by simp
          rw [h3] at h2
          have := (List.nodup_cons.mp (List.perm_middle.nodup_iff.mp h2)).1
          simpa using this
        have hxy : x.1 ≠ y.1 := fun e => hy (by simp [e])
        have t1 : Turns h w (l ++ (x :: (m0 ++ [y]) ++ r))
            { w with val := put (put w.val x.1 (some y.2)) y.1 (some x.2) }
            (l ++ (x.1, y.2) :: (m0 ++ (y.1, x.2) :: r)) := by
          refine hr.revalue (by simp) ?_ ?_
          · intro z hz
            by_cases c1 : z = (x.1, y.2)
            · subst c1
              show put (put w.val x.1 (some y.2)) y.1 (some x.2) x.1 = some y.2
              rw [put_ne _ _ hxy]; simp
            · by_cases c2 : z = (y.1, x.2)
              · subst c2; simp
              · have hz' : z ∈ l ++ (m0 ++ r) := by
                  simp only [List.mem_append, List.mem_cons] at hz ⊢
                  tauto
                have hzm : z.1 ∈ l.map (·.1) ++ (m0.map (·.1) ++ r.map (·.1)) := by
                  rw [← List.map_append, ← List.map_append]; exact List.mem_map_of_mem hz'
                have n1 : z.1 ≠ x.1 := by
                  intro e
                  refine hx ?_
                  rw [← e]
                  simp only [List.mem_append, List.mem_cons] at hzm ⊢
                  tauto
                have n2 : z.1 ≠ y.1 := by
                  intro e
                  refine hy ?_
                  rw [← e]
                  simp only [List.mem_append, List.mem_cons] at hzm ⊢
                  tauto
                rw [put_ne _ _ n2, put_ne _ _ n1]
                refine hr.vals z ?_
                simp only [List.mem_append, List.mem_cons] at hz' ⊢
                tauto
          · intro a ha
            rw [put_ne _ _ (by rintro rfl; exact ha (by simp)), put_ne _ _ (by rintro rfl; exact ha (by simp))]
        obtain ⟨w2, m', e2, t2, hm⟩ := ih (l := l ++ [(x.1, y.2)]) (m := m0) (r := (y.1, x.2) :: r) (by simpa using t1.rep)
          (by simp at hk; omega)
        refine ⟨w2, (x.1, y.2) :: (m' ++ [(y.1, x.2)]), ?_, ?_, ?_⟩
        · simp only [List.cons_append, List.map_cons, List.headD_cons]
          rw [Nodes.reverse, if_neg (by simpa using hne), hlast, hp, if_neg (by simp), if_neg hxy, hr.deref (x := x) (by simp),
            hr.deref (x := y) (by simp)]
          simp only
          rw [hn]
          exact e2
        · refine t1.trans ?_
          have : Turns h { w with val := put (put w.val x.1 (some y.2)) y.1 (some x.2) }
              (l ++ [(x.1, y.2)] ++ (m0 ++ (y.1, x.2) :: r)) w2 (l ++ [(x.1, y.2)] ++ (m' ++ (y.1, x.2) :: r)) := t2
          simpa using this
        · simp [hm]

theorem hookAll_linked {h : Nat} : ∀ (as : List Nat) {l : List Nat} {w : World α}, Linked w.next w.prev h l h →
    (h :: (l ++ as)).Nodup → (∀ a ∈ h :: (l ++ as), w.live a = true) →
    ∃ n p, hookAll w h as = .ok { w with next := n, prev := p } ∧ Linked n p h (l ++ as) h ∧
      (∀ a, a ∉ h :: (l ++ as) → n a = w.next a ∧ p a = w.prev a) := by
  intro as
  induction as with
  | nil => intro l w hl _ _; exact ⟨w.next, w.prev, rfl, by simpa using hl, fun _ _ => ⟨rfl, rfl⟩⟩
  | cons a as ih =>
    intro l w hl hd hv
    have hd1 : (h :: (l ++ [])).Nodup := hd.sublist (by simp)
    have ha : a ∉ h :: (l ++ []) := by
      have : (a :: (h :: (l ++ as))).Nodup := by
        refine (List.Perm.nodup_iff ?_).mp hd
        exact (List.Perm.cons h List.perm_middle).trans (List.Perm.swap a h _)
      have := (List.nodup_cons.mp this).1
      simp only [List.mem_cons, List.mem_append] at this ⊢
      tauto
    obtain ⟨k1, k2⟩ := Linked.hook (r := []) (pos := h) (by simpa using hl) hd1 ha rfl
    have e1 : hook w a h = .ok { w with
        next := put (put w.next a h) (w.prev h) a
        prev := put (put w.prev a (w.prev h)) h a } := by
      rw [Nodes.hook, hv a (by simp), hv h (by simp), hv (w.prev h) (by simp only [List.mem_cons, List.mem_append] at k2 ⊢; tauto)]
      rfl
    obtain ⟨n, p, e2, k3, k4⟩ := ih (l := l ++ [a]) (w := { w with
        next := put (put w.next a h) (w.prev h) a
        prev := put (put w.prev a (w.prev h)) h a }) k1 (by simpa using hd) (by simpa using hv)
    refine ⟨n, p, ?_, by simpa using k3, ?_⟩
    · rw [hookAll, e1]
      exact e2
    · intro b hb
      obtain ⟨e3, e4⟩ := k4 b (by simpa using hb)
      have nb : b ≠ a := by rintro rfl; exact hb (by simp)
      have nh : b ≠ h := by rintro rfl; exact hb (by simp)
      have np : b ≠ w.prev h := by
        rintro rfl
        refine hb ?_
        simp only [List.mem_cons, List.mem_append] at k2 ⊢
        tauto
      exact ⟨by rw [e3]; simp only [put_ne _ _ np, put_ne _ _ nb], by rw [e4]; simp only [put_ne _ _ nh, put_ne _ _ nb]⟩

theorem Rep.sort {w : World α} {h : Nat} {xs : List (Nat × α)} (hr : Rep w h xs) (le : α → α → Bool) :
    ∃ w' ys, Nodes.sort w h le = .ok w' ∧ Turns h w xs w' ys ∧ ys.map (·.2) = (xs.map (·.2)).mergeSort le := by
  have hperm : (xs.mergeSort fun x y => le x.2 y.2).Perm xs := List.mergeSort_perm _ _
  generalize hy : (xs.mergeSort fun x y => le x.2 y.2) = ys at hperm
  have hids : (ys.map (·.1)).Perm (xs.map (·.1)) := hperm.map _
  have hmem : ∀ a, a ∈ h :: ys.map (·.1) ↔ a ∈ h :: xs.map (·.1) := fun a => (List.Perm.cons h hids).mem_iff
  obtain ⟨n, p, e, k1, k2⟩ := hookAll_linked (h := h) (ys.map (·.1)) (l := [])
    (w := { w with next := put w.next h h, prev := put w.prev h h }) ⟨by simp, by simp⟩
    (by simpa using (List.Perm.cons h hids).nodup_iff.mpr hr.nodup)
    (fun a ha => hr.live a ((hmem a).mp (by simpa using ha)))
  rw [List.nil_append] at k1 k2
  have e' : Nodes.sort w h le = .ok { w with next := n, prev := p } := by
    rw [Nodes.sort, hr.nodes]; simp only; rw [hy]; exact e
  refine ⟨_, ys, e', ⟨⟨?_, ?_, ?_, ?_, hr.header, ?_, ?_⟩,
    ⟨?_, ?_, fun _ _ _ => rfl, fun _ _ _ => rfl, fun _ _ _ => rfl, Nat.le_refl _, rfl⟩, ?_⟩, ?_⟩
  · exact k1
  · exact (List.Perm.cons h hids).nodup_iff.mpr hr.nodup
  · intro a ha; exact hr.live a ((hmem a).mp ha)
  · intro x hx; exact hr.vals x (hperm.mem_iff.mp hx)
  · rw [hperm.length_eq]; exact hr.size
  · intro a ha; exact hr.low a ((hmem a).mp ha)
  · intro a _ hS
    have := (k2 a (fun hm => hS ((hmem a).mp hm))).1
    simp only at this ⊢
    rw [this, put_ne _ _ (by rintro rfl; exact hS (by simp))]
  · intro a _ hS
    have := (k2 a (fun hm => hS ((hmem a).mp hm))).2
    simp only at this ⊢
    rw [this, put_ne _ _ (by rintro rfl; exact hS (by simp))]
  · intro a ha; exact .inl (hids.mem_iff.mp ha)
  · rw [← hy]
    exact List.map_mergeSort (fun _ _ _ _ => rfl)

theorem Rep.keep {S : List Nat} {w w' : World α} {h : Nat} {xs : List (Nat × α)} (hr : Rep w h xs) (hw : Within S w w')
    (hS : ∀ a ∈ h :: xs.map (·.1), a ∉ S) : Rep w' h xs := by
  refine ⟨hr.linked.frame ?_ ?_, hr.nodup, ?_, ?_, ?_, ?_, ?_⟩
  · intro a ha; exact hw.next a (hr.low a ha) (hS a ha)
  · intro a ha
    have : a ∈ h :: xs.map (·.1) := by
      simp only [List.mem_append, List.mem_cons, List.not_mem_nil, or_false] at ha ⊢
      tauto
    exact hw.prev a (hr.low a this) (hS a this)
  · intro a ha; rw [hw.live a (hr.low a ha) (hS a ha)]; exact hr.live a ha
  · intro x hx
    have : x.1 ∈ h :: xs.map (·.1) := List.mem_cons_of_mem _ (List.mem_map_of_mem hx)
    rw [hw.val _ (hr.low _ this) (hS _ this)]; exact hr.vals x hx
  · rw [hw.val _ (hr.low _ (by simp)) (hS _ (by simp))]; exact hr.header
  · rw [hw.size _ (hr.low _ (by simp)) (hS _ (by simp))]; exact hr.size
  · intro a ha; exact Nat.lt_of_lt_of_le (hr.low a ha) hw.fresh

/-- Where the lists are. -/
abbrev Map (α : Type) := Nat → Option (Nat × List (Nat × α))

/-- The lists of the world are rings that share no node. -/
structure Inv (w : World α) (G : Map α) : Prop where
  objs : ∀ o, w.objs o = (G o).map (·.1)
  rep : ∀ o h xs, G o = some (h, xs) → Rep w h xs
  apart : ∀ o o' h xs h' xs', o ≠ o' → G o = some (h, xs) → G o' = some (h', xs') →
    ∀ a ∈ h :: xs.map (·.1), a ∉ h' :: xs'.map (·.1)

/-- The world holds the lists `g`, those in `P` at the nodes given by `G0`. -/
def Keeps (P : Nat → Prop) (G0 : Map α) (w : World α) (g : Spec.Lists α) : Prop :=
  ∃ G : Map α, Inv w G ∧ (∀ o, g o = (G o).map fun x => x.2.map (·.2)) ∧ ∀ o, P o → G o = G0 o

/-- The world holds the lists `g`. -/
abbrev Holds (w : World α) (g : Spec.Lists α) : Prop := Keeps (fun _ => False) (fun _ => none) w g

variable {P : Nat → Prop} {G0 : Map α}

theorem holds_start : Holds (World.start : World α) fun _ => none :=
  ⟨fun _ => none, ⟨fun _ => rfl, fun _ _ _ h => by simp at h, fun _ _ _ _ _ _ _ h => by simp at h⟩, fun _ => rfl,
    fun _ h => h.elim⟩

/-- Look a list up. -/
theorem Keeps.look {w : World α} {g : Spec.Lists α} (hw : Keeps P G0 w g) (o : Nat) :
    (w.objs o = none ∧ g o = none) ∨ ∃ h xs, w.objs o = some h ∧ g o = some (xs.map (·.2)) ∧ Rep w h xs ∧
      ∀ w' xs', ¬ P o → Turns h w xs w' xs' → Keeps P G0 w' (Spec.set g o (some (xs'.map (·.2)))) := by
  obtain ⟨G, hi, hg, hP⟩ := hw
  rcases hG : G o with _ | ⟨h, xs⟩
  · left
    exact ⟨by rw [hi.objs, hG]; rfl, by rw [hg, hG]; rfl⟩
  · right
    refine ⟨h, xs, by rw [hi.objs, hG]; rfl, by rw [hg, hG]; rfl, hi.rep _ _ _ hG, ?_⟩
    intro w' xs' hno t
    refine ⟨fun x => if x = o then some (h, xs') else G x, ⟨?_, ?_, ?_⟩, ?_, fun x hx => by
      dsimp only; rw [if_neg (show x ≠ o from fun e => hno (e ▸ hx)), hP x hx]⟩
    · intro x
      rw [t.within.objs, hi.objs]
      by_cases c : x = o
      · subst c; simp [hG]
      · simp [c]
    · intro x h1 xs1 hx
      by_cases c : x = o
      · simp only [c, if_true, Option.some.injEq, Prod.mk.injEq] at hx
        obtain ⟨rfl, rfl⟩ := hx
        exact t.rep
      · simp only [c, if_false] at hx
        exact (hi.rep _ _ _ hx).keep t.within (hi.apart x o _ _ _ _ c hx hG)
    · have key : ∀ x h1 xs1, x ≠ o → G x = some (h1, xs1) → ∀ a ∈ h1 :: xs1.map (·.1), a ∉ h :: xs'.map (·.1) := by
        intro x h1 xs1 c hx a ha hm
        have hlow := (hi.rep _ _ _ hx).low a ha
        have hap := hi.apart x o _ _ _ _ c hx hG a ha
        rcases List.mem_cons.mp hm with e | e
        · exact hap (by simp [e])
        · rcases t.ids a e with e | e
          · exact hap (List.mem_cons_of_mem _ e)
          · omega
      intro x y h1 xs1 h2 xs2 hxy hx hy a ha hm
      by_cases c1 : x = o
      · simp only [c1, if_true, Option.some.injEq, Prod.mk.injEq] at hx
        obtain ⟨rfl, rfl⟩ := hx
        have c2 : y ≠ o := fun e => hxy (by rw [c1, e])
        simp only [c2, if_false] at hy
        exact key y _ _ c2 hy a hm ha
      · simp only [c1, if_false] at hx
        by_cases c2 : y = o
        · simp only [c2, if_true, Option.some.injEq, Prod.mk.injEq] at hy
          obtain ⟨rfl, rfl⟩ := hy
          exact key x _ _ c1 hx a ha hm
        · simp only [c2, if_false] at hy
          exact hi.apart _ _ _ _ _ _ hxy hx hy a ha hm
    · intro x
      by_cases c : x = o
      · simp [Spec.set, c]
      · simp [Spec.set, c, hg]

/-- A new list. -/
theorem Keeps.create {w : World α} {g : Spec.Lists α} (hw : Keeps P G0 w g) {o : Nat} (ho : g o = none) (hno : ¬ P o) :
    Keeps P G0 (Nodes.create w o) (Spec.set g o (some [])) ∧ Rep (Nodes.create w o) w.fresh [] := by
  obtain ⟨G, hi, hg, hP⟩ := hw
  have hGo : G o = none := by
    have := hg o
    rw [ho] at this
    rcases h : G o with _ | x
    · rfl
    · rw [h] at this; simp at this
  have hrep : Rep (Nodes.create w o) w.fresh [] := by
    refine ⟨⟨by simp [Nodes.create], by simp [Nodes.create]⟩, by simp, ?_, by simp, by simp [Nodes.create], by simp [Nodes.create], ?_⟩
    · intro a ha; simp at ha; subst ha; simp [Nodes.create]
    · intro a ha; simp at ha; subst ha; simp [Nodes.create]
  have hold : ∀ x h xs, G x = some (h, xs) → Rep (Nodes.create w o) h xs := by
    intro x h xs hx
    have hr := hi.rep _ _ _ hx
    have ne : ∀ a ∈ h :: xs.map (·.1), a ≠ w.fresh := fun a ha => by have := hr.low a ha; omega
    refine ⟨hr.linked.frame ?_ ?_, hr.nodup, ?_, ?_, ?_, ?_, ?_⟩
    · intro a ha; exact put_ne _ _ (ne a ha)
    · intro a ha
      refine put_ne _ _ (ne a ?_)
      simp only [List.mem_append, List.mem_cons, List.not_mem_nil, or_false] at ha ⊢
      tauto
    · intro a ha
      show put w.live w.fresh true a = true
      rw [put_ne _ _ (ne a ha)]; exact hr.live a ha
    · intro y hy
      show put w.val w.fresh none y.1 = some y.2
      rw [put_ne _ _ (ne y.1 (List.mem_cons_of_mem _ (List.mem_map_of_mem hy)))]; exact hr.vals y hy
    · show put w.val w.fresh none h = none
      rw [put_ne _ _ (ne h (by simp))]; exact hr.header
    · show put w.size w.fresh 0 h = xs.length
      rw [put_ne _ _ (ne h (by simp))]; exact hr.size
    · intro a ha
      exact Nat.lt_succ_of_lt (hr.low a ha)
  refine ⟨⟨fun x => if x = o then some (w.fresh, []) else G x, ⟨?_, ?_, ?_⟩, ?_, fun x hx => by
    dsimp only; rw [if_neg (show x ≠ o from fun e => hno (e ▸ hx)), hP x hx]⟩, hrep⟩
  · intro x
    by_cases c : x = o
    · subst c; simp [Nodes.create]
    · simp [c, Nodes.create, put, hi.objs]
  · intro x h xs hx
    by_cases c : x = o
    · simp only [c, if_true, Option.some.injEq, Prod.mk.injEq] at hx
      obtain ⟨rfl, rfl⟩ := hx
      exact hrep
    · simp only [c, if_false] at hx
      exact hold _ _ _ hx
  · intro x y h1 xs1 h2 xs2 hxy hx hy a ha hm
    by_cases c1 : x = o
    · simp only [c1, if_true, Option.some.injEq, Prod.mk.injEq] at hx
      obtain ⟨rfl, rfl⟩ := hx
      have c2 : y ≠ o := fun e => hxy (by rw [c1, e])
      simp only [c2, if_false] at hy
      have := (hi.rep _ _ _ hy).low a hm
      simp at ha
      omega
    · simp only [c1, if_false] at hx
      by_cases c2 : y = o
      · simp only [c2, if_true, Option.some.injEq, Prod.mk.injEq] at hy
        obtain ⟨rfl, rfl⟩ := hy
        have := (hi.rep _ _ _ hx).low a ha
        simp at hm
        omega
      · simp only [c2, if_false] at hy
        exact hi.apart _ _ _ _ _ _ hxy hx hy a ha hm
  · intro x
    by_cases c : x = o
    · simp [Spec.set, c]
    · simp [Spec.set, c, hg]

/-- An object goes away. -/
theorem Keeps.drop {w : World α} {g : Spec.Lists α} (hw : Keeps P G0 w g) {o h : Nat} (ho : w.objs o = some h) (hno : ¬ P o) :
    Keeps P G0 { w with live := put w.live h false, objs := put w.objs o none } (Spec.set g o none) := by
  obtain ⟨G, hi, hg, hP⟩ := hw
  have hGo : ∃ xs, G o = some (h, xs) := by
    rw [hi.objs] at ho
    rcases e : G o with _ | ⟨h', xs⟩
    · rw [e] at ho; simp at ho
    · rw [e] at ho
      simp at ho
      exact ⟨xs, by rw [ho]⟩
  obtain ⟨xs0, hG⟩ := hGo
  refine ⟨fun x => if x = o then none else G x, ⟨?_, ?_, ?_⟩, ?_, fun x hx => by
    dsimp only; rw [if_neg (show x ≠ o from fun e => hno (e ▸ hx)), hP x hx]⟩
  · intro x
    by_cases c : x = o
    · subst c; simp
    · simp [c, put, hi.objs]
  · intro x h1 xs1 hx
    by_cases c : x = o
    · simp [c] at hx
    · simp only [c, if_false] at hx
      have hr := hi.rep _ _ _ hx
      refine ⟨hr.linked, hr.nodup, ?_, hr.vals, hr.header, hr.size, hr.low⟩
      intro a ha
      have : a ≠ h := by
        rintro rfl
        exact hi.apart _ _ _ _ _ _ c hx hG a ha (by simp)
      show put w.live h false a = true
      rw [put_ne _ _ this]
      exact hr.live a ha
  · intro x y h1 xs1 h2 xs2 hxy hx hy
    by_cases c1 : x = o
    · simp [c1] at hx
    · by_cases c2 : y = o
      · simp [c2] at hy
      · simp only [c1, c2, if_false] at hx hy
        exact hi.apart _ _ _ _ _ _ hxy hx hy
  · intro x
    by_cases c : x = o
    · simp [Spec.set, c]
    · simp [Spec.set, c, hg]

/-- Two lists have different headers. -/
theorem Keeps.header_ne {w : World α} {g : Spec.Lists α} (hw : Keeps P G0 w g) {o p h h' : Nat} (ho : w.objs o = some h)
    (hp : w.objs p = some h') (hne : o ≠ p) : h ≠ h' := by
  obtain ⟨G, hi, _, _⟩ := hw
  rw [hi.objs] at ho hp
  rcases e : G o with _ | ⟨h1, xs1⟩
  · rw [e] at ho; simp at ho
  · rcases e' : G p with _ | ⟨h2, xs2⟩
    · rw [e'] at hp; simp at hp
    · rw [e] at ho
      rw [e'] at hp
      simp at ho hp
      subst ho hp
      rintro rfl
      exact hi.apart _ _ _ _ _ _ hne e e' h1 (by simp) (by simp)

theorem set_same (g : Spec.Lists α) {o : Nat} {l : Option (List α)} (h : g o = l) : Spec.set g o l = g := by
  funext x
  by_cases c : x = o
  · subst c; simp [Spec.set, h]
  · simp [Spec.set, c]

theorem Rep.assignFrom {w : World α} {h h' : Nat} {xs ys : List (Nat × α)} (hr : Rep w h xs) (hr' : Rep w h' ys)
    (hne : h ≠ h') : ∃ w' zs, Nodes.assignFrom w h h' = .ok w' ∧ Turns h w xs w' zs ∧ zs.map (·.2) = ys.map (·.2) := by
  obtain ⟨w', zs, e, t, hz⟩ := Rep.assign (ys.map (·.2)) (l := []) (r := xs) (by simpa using hr)
  refine ⟨w', zs, ?_, by simpa using t, hz⟩
  rw [Nodes.assignFrom, if_neg hne, hr'.elems]
  simp only
  rw [if_pos (hr.live h (by simp)), hr.linked.first]
  exact e

/-- Split at a position. -/
theorem split_at {xs : List (Nat × α)} {i : Nat} (hi : i < xs.length) :
    ∃ x, xs = xs.take i ++ x :: xs.drop (i + 1) ∧ ((xs.map (·.1)).drop i).headD h = x.1 ∧ xs[i]? = some x := by
  refine ⟨xs[i], ?_, ?_, by simp [hi]⟩
  · rw [List.getElem_cons_drop, List.take_append_drop]
  · rw [← List.map_drop, ← List.getElem_cons_drop hi]; rfl

theorem op_refines {w : World α} {g : Spec.Lists α} (hw : Keeps P G0 w g) (o : Nat) (op : LOp α)
    (hok : Spec.evOk g (.on o op)) (hno : ¬ P o) : ∃ w', step w (.on o op) = .ok w' (Spec.step g (.on o op)).2 ∧
      Keeps P G0 w' (Spec.step g (.on o op)).1 := by
  rcases hw.look o with ⟨h1, h2⟩ | ⟨h, xs, h1, h2, hr, next⟩
  · exact ⟨w, by simp [step, h1, Spec.step, h2], by simpa [Spec.step, h2] using hw⟩
  · have hok : Spec.opOk (xs.map (·.2)) op := hok _ h2
    have mk : ∀ {w' : World α} {ys : List (Nat × α)} {l : List α}, Turns h w xs w' ys → ys.map (·.2) = l →
        Keeps P G0 w' (Spec.set g o (some l)) := fun t e => e ▸ next _ _ hno t
    have same : ∀ {l : List α}, l = xs.map (·.2) → Keeps P G0 w (Spec.set g o (some l)) := by
      rintro l rfl
      rw [set_same g h2]; exact hw
    simp only [step, h1, Spec.step, h2]
    cases op with
    | push v =>
      obtain ⟨w', e, t, _⟩ := (show Rep w h (xs ++ []) by simpa using hr).insert v
      simp only [List.map_nil, List.headD_nil, List.append_nil] at e t
      simp only [e, done, Spec.opStep]
      exact ⟨w', rfl, mk t (by simp)⟩
    | insertAt i v =>
      obtain ⟨w', e, t, _⟩ := (show Rep w h (xs.take i ++ xs.drop i) by simpa using hr).insert v
      rw [List.take_append_drop] at t
      simp only [hr.at' i, ← List.map_drop, e, done, Spec.opStep]
      exact ⟨w', rfl, mk t (by simp [List.map_take, List.map_drop])⟩
    | eraseAt i =>
      have hi : i < xs.length := by simpa [Spec.opOk] using hok
      obtain ⟨x, hx, ha, _⟩ := split_at (h := h) hi
      obtain ⟨w', e, t, _⟩ := (show Rep w h (xs.take i ++ x :: xs.drop (i + 1)) from hx ▸ hr).erase
      rw [← hx] at t
      simp only [hr.at' i, ha, e, done, Spec.opStep]
      exact ⟨w', rfl, mk t (by simp [List.map_take, List.map_drop])⟩
    | setAt i v =>
      have hi : i < xs.length := by simpa [Spec.opOk] using hok
      obtain ⟨x, hx, ha, _⟩ := split_at (h := h) hi
      obtain ⟨w', e, t, _⟩ := (show Rep w h (xs.take i ++ x :: xs.drop (i + 1)) from hx ▸ hr).store v
      rw [← hx] at t
      simp only [hr.at' i, ha, e, done, Spec.opStep]
      refine ⟨w', rfl, mk t ?_⟩
      rw [List.set_eq_take_append_cons_drop, if_pos (by simpa using hi)]
      simp [List.map_take, List.map_drop]
    | get i =>
      have hi : i < xs.length := by simpa [Spec.opOk] using hok
      obtain ⟨x, hx, ha, hg⟩ := split_at (h := h) hi
      have hm : x ∈ xs := by rw [hx]; simp
      simp only [hr.at' i, ha, hr.deref hm, Spec.opStep, List.getElem?_map, hg, Option.map_some]
      exact ⟨w, rfl, same rfl⟩
    | popBack =>
      rcases List.eq_nil_or_concat xs with rfl | ⟨ys, y, rfl⟩
      · simp [Spec.opOk] at hok
      · simp only [List.concat_eq_append] at *
        have hp : w.prev h = y.1 := by
          have := hr.linked
          rw [List.map_append] at this
          exact this.around.2
        obtain ⟨w', e, t, _⟩ := hr.erase
        simp only [hr.live h (by simp), if_true, hp, e, done, Spec.opStep]
        exact ⟨w', rfl, mk t (by simp)⟩
    | eraseRange i j =>
      have hij : i ≤ j := hok
      have hx : xs = xs.take i ++ ((xs.drop i).take (j - i) ++ xs.drop j) := by
        have e : xs.drop j = (xs.drop i).drop (j - i) := by rw [List.drop_drop]; congr 1; omega
        rw [e, List.take_append_drop, List.take_append_drop]
      obtain ⟨w', e, t, _⟩ := Rep.eraseTo (l := xs.take i) (r := xs.drop j) ((xs.drop i).take (j - i)) (w := w) (h := h)
        (hx ▸ hr) (k := w.fresh + 1) (by have := hr.short; simp; omega)
      rw [← hx] at t
      have ei : ((xs.map (·.1)).drop i).headD h = (((xs.drop i).take (j - i) ++ xs.drop j).map (·.1)).headD h := by
        rw [← List.map_drop]
        congr 2
        have e : xs.drop j = (xs.drop i).drop (j - i) := by rw [List.drop_drop]; congr 1; omega
        rw [e, List.take_append_drop]
      rw [List.map_drop] at e
      simp only [hr.at' i, hr.at' j, ei, e, done, Spec.opStep]
      exact ⟨w', rfl, mk t (by simp [List.map_take, List.map_drop])⟩
    | clear =>
      obtain ⟨w', e, t⟩ := hr.clear
      simp only [e, done, Spec.opStep]
      exact ⟨w', rfl, mk t rfl⟩
    | reverse =>
      obtain ⟨w', m, e, t, hm⟩ := Rep.reverse (w.fresh + 1) (l := []) (m := xs) (r := []) (w := w) (h := h) (by simpa using hr)
        (by have := hr.short; omega)
      simp only [List.map_nil, List.headD_nil, List.append_nil, List.nil_append] at e t
      simp only [hr.live h (by simp), if_true, hr.linked.first, e, done, Spec.opStep]
      exact ⟨w', rfl, mk t hm⟩
    | sort le =>
      obtain ⟨w', ys, e, t, hy⟩ := hr.sort le
      simp only [e, done, Spec.opStep]
      exact ⟨w', rfl, mk t hy⟩
    | toList =>
      simp only [hr.elems, Spec.opStep]
      exact ⟨w, rfl, same rfl⟩

theorem step_refines {w : World α} {g : Spec.Lists α} (hw : Keeps P G0 w g) (e : Ev α) (hok : Spec.evOk g e) (hno : ∀ o, Spec.changes o e → ¬ P o) :
    ∃ w', step w e = .ok w' (Spec.step g e).2 ∧ Keeps P G0 w' (Spec.step g e).1 := by
  cases e with
  | on o op => exact op_refines hw o op hok (hno o rfl)
  | create o =>
    rcases hw.look o with ⟨h1, h2⟩ | ⟨h, xs, h1, h2, hr, next⟩
    · exact ⟨Nodes.create w o, by simp only [step, h1, Spec.step], by simpa [Spec.step, h2] using (hw.create h2 (hno o rfl)).1⟩
    · exact ⟨w, by simp only [step, h1, Spec.step], by simpa [Spec.step, h2] using hw⟩
  | copy o c =>
    rcases hw.look o with ⟨h1, h2⟩ | ⟨h, xs, h1, h2, hr, _⟩
    · exact ⟨w, by simp only [step, h1, Spec.step], by simpa [Spec.step, h2] using hw⟩
    · rcases hw.look c with ⟨k1, k2⟩ | ⟨h', ys, k1, k2, _, _⟩
      · have hc := hw.create k2 (hno c rfl)
        have hne : c ≠ o := by rintro rfl; rw [h2] at k2; simp at k2
        have ob : (Nodes.create w c).objs c = some w.fresh := by simp [Nodes.create]
        have oo : (Nodes.create w c).objs o = some h := by simp [Nodes.create, put, Ne.symm hne, h1]
        rcases hc.1.look c with ⟨l1, _⟩ | ⟨hf, zs, l1, l2, hrc, next⟩
        · rw [ob] at l1; simp at l1
        · rw [ob] at l1
          obtain rfl : w.fresh = hf := by simpa using l1
          rcases hc.1.look o with ⟨m1, _⟩ | ⟨ho, us, m1, m2, hro, _⟩
          · rw [oo] at m1; simp at m1
          · rw [oo] at m1
            obtain rfl : h = ho := by simpa using m1
            have hus : us.map (·.2) = xs.map (·.2) := by
              have : Spec.set g c (some []) o = some (xs.map (·.2)) := by simp [Spec.set, Ne.symm hne, h2]
              rw [this] at m2
              simpa using m2.symm
            obtain ⟨w', vs, e, t, hv⟩ := hrc.assignFrom hro (hc.1.header_ne ob oo hne)
            refine ⟨w', by simp only [step, h1, k1, e, done, Spec.step], ?_⟩
            have := next _ _ (hno c rfl) t
            rw [hv, hus] at this
            have e2 : Spec.set (Spec.set g c (some [])) c (some (xs.map (·.2))) = Spec.set g c (some (xs.map (·.2))) := by
              funext x; simp only [Spec.set]; split <;> rfl
            rw [e2] at this
            simpa [Spec.step, k2, h2] using this
      · exact ⟨w, by simp only [step, h1, k1, Spec.step], by simpa [Spec.step, k2] using hw⟩
  | assign o p =>
    rcases hw.look o with ⟨h1, h2⟩ | ⟨h, xs, h1, h2, hr, next⟩
    · exact ⟨w, by simp only [step, h1, Spec.step], by simpa [Spec.step, h2] using hw⟩
    · rcases hw.look p with ⟨k1, k2⟩ | ⟨h', ys, k1, k2, hr', _⟩
      · exact ⟨w, by simp only [step, h1, k1, Spec.step], by simpa [Spec.step, h2, k2] using hw⟩
      · by_cases c : o = p
        · subst c
          rw [h1] at k1
          obtain rfl : h = h' := by simpa using k1
          refine ⟨w, by simp only [step, h1, assignFrom, if_true, done, Spec.step], ?_⟩
          simp only [Spec.step, h2]
          rw [set_same g h2]
          exact hw
        · obtain ⟨w', zs, e, t, hz⟩ := hr.assignFrom hr' (hw.header_ne h1 k1 c)
          refine ⟨w', by simp only [step, h1, k1, e, done, Spec.step], ?_⟩
          simp only [Spec.step, h2, k2]
          rw [← hz]
          exact next _ _ (hno o rfl) t
  | extend o p =>
    rcases hw.look o with ⟨h1, h2⟩ | ⟨h, xs, h1, h2, hr, next⟩
    · exact ⟨w, by simp only [step, h1, Spec.step], by simpa [Spec.step, h2] using hw⟩
    · rcases hw.look p with ⟨k1, k2⟩ | ⟨h', ys, k1, k2, hr', _⟩
      · exact ⟨w, by simp only [step, h1, k1, Spec.step], by simpa [Spec.step, h2, k2] using hw⟩
      · obtain ⟨w', zs, e, t, hz⟩ := Rep.insertAll (ys.map (·.2)) hr
        refine ⟨w', by simp only [step, h1, k1, hr'.elems, e, done, Spec.step], ?_⟩
        simp only [Spec.step, h2, k2]
        have := next _ _ (hno o rfl) t
        rw [List.map_append, hz] at this
        exact this
  | drop o =>
    rcases hw.look o with ⟨h1, h2⟩ | ⟨h, xs, h1, h2, hr, next⟩
    · refine ⟨w, by simp only [step, h1, Spec.step], ?_⟩
      simp only [Spec.step]
      rw [set_same g h2]
      exact hw
    · obtain ⟨w', e, t⟩ := hr.clear
      refine ⟨{ w' with live := put w'.live h false, objs := put w'.objs o none }, by simp only [step, h1, e, Spec.step], ?_⟩
      have h3 := (next _ _ (hno o rfl) t).drop (o := o) (h := h) (by rw [t.within.objs]; exact h1) (hno o rfl)
      have e2 : Spec.set (Spec.set g o (some (([] : List (Nat × α)).map (·.2)))) o none = Spec.set g o none := by
        funext x; simp only [Spec.set]; split <;> rfl
      rw [e2] at h3
      exact h3

theorem Keeps.contents {w : World α} {g : Spec.Lists α} (hw : Keeps P G0 w g) (o : Nat) : contents w o = (g o).map .ok := by
  rcases hw.look o with ⟨h1, h2⟩ | ⟨h, xs, h1, h2, hr, _⟩
  · simp [Nodes.contents, h1, h2]
  · simp [Nodes.contents, h1, h2, hr.elems]

/-- A history: the answers, and every list at every point. -/
theorem run_refines : ∀ (es : List (Ev α)) {w : World α} {g : Spec.Lists α}, Holds w g → Spec.Ok g es →
    ∃ ws : List (World α), run w es = List.zipWith .ok ws (Spec.answers g es) ∧ ws.length = es.length ∧
      ∀ k, (hk : k < ws.length) → Holds ws[k] (Spec.after g (es.take (k + 1))) := by
  intro es
  induction es with
  | nil => intro w g _ _; exact ⟨[], rfl, rfl, fun k hk => by simp at hk⟩
  | cons e es ih =>
    intro w g hw hok
    obtain ⟨w', e1, hw'⟩ := step_refines hw e hok.1 (fun _ _ h => h)
    obtain ⟨ws, e2, hl, hk⟩ := ih hw' hok.2
    refine ⟨w' :: ws, ?_, by simp [hl], ?_⟩
    · rw [run, e1]
      simp only [Spec.answers, List.zipWith_cons_cons]
      rw [e2]
    · intro k hlt
      cases k with
      | zero => simpa [Spec.after] using hw'
      | succ k => simpa [Spec.after] using hk k (by simpa using hlt)

theorem runTo_holds : ∀ (es : List (Ev α)) {w : World α} {g : Spec.Lists α}, Holds w g → Spec.Ok g es →
    ∃ w', runTo w es = some w' ∧ Holds w' (Spec.after g es) := by
  intro es
  induction es with
  | nil => intro w g hw _; exact ⟨w, rfl, hw⟩
  | cons e es ih =>
    intro w g hw hok
    obtain ⟨w', e1, hw'⟩ := step_refines hw e hok.1 (fun _ _ h => h)
    obtain ⟨w2, e2, h2⟩ := ih hw' hok.2
    exact ⟨w2, by rw [runTo, e1]; exact e2, h2⟩

theorem ok_append : ∀ (es es' : List (Ev α)) {g : Spec.Lists α},
    Spec.Ok g (es ++ es') ↔ Spec.Ok g es ∧ Spec.Ok (Spec.after g es) es' := by
  intro es es'
  induction es with
  | nil => intro g; simp [Spec.Ok, Spec.after]
  | cons e es ih => intro g; simp [Spec.Ok, Spec.after, ih, and_assoc]

theorem step_others {g : Spec.Lists α} {e : Ev α} {o : Nat} (h : ¬ Spec.changes o e) : (Spec.step g e).1 o = g o := by
  have put : ∀ {p : Nat} {l : Option (List α)}, p ≠ o → Spec.set g p l o = g o := by
    intro p l hp
    simp [Spec.set, Ne.symm hp]
  cases e with
  | create p =>
    simp only [Spec.step]
    split
    · rfl
    · exact put h
  | copy p c =>
    simp only [Spec.step]
    split
    · rfl
    · rcases g p with _ | l
      · rfl
      · exact put h
  | assign p q =>
    simp only [Spec.step]
    rcases g p with _ | l
    · rfl
    · rcases g q with _ | l'
      · rfl
      · exact put h
  | extend p q =>
    simp only [Spec.step]
    rcases g p with _ | l
    · rfl
    · rcases g q with _ | l'
      · rfl
      · exact put h
  | on p op =>
    simp only [Spec.step]
    split
    · rfl
    · exact put h
  | drop p => exact put h

theorem after_others : ∀ (es : List (Ev α)) {g : Spec.Lists α} {o : Nat}, (∀ e ∈ es, ¬ Spec.changes o e) →
    Spec.after g es o = g o := by
  intro es
  induction es with
  | nil => intro g o _; rfl
  | cons e es ih =>
    intro g o h
    rw [Spec.after, ih (fun x hx => h x (List.mem_cons_of_mem _ hx)), step_others (h e (by simp))]

end Verif.Nodes
