import Verif.Spec.Refuse
import Verif.Lemmas.Heap

/-! Helper lemmas: refused memory in the lists of objects. -/

namespace Verif.Heap

/-- Nothing is written to the count of an immortal object. -/
def Keeps (h h' : Heap) : Prop := h'.imm = h.imm ∧ ∀ o, h.imm o = true → h'.rc o = h.rc o

theorem Keeps.trans {a b c : Heap} (x : Keeps a b) (y : Keeps b c) : Keeps a c :=
  ⟨y.1.trans x.1, fun o ho => (y.2 o (by rw [x.1]; exact ho)).trans (x.2 o ho)⟩

theorem set_keeps {h : Heap} {o : Obj} {n : Nat} (hi : ¬ h.imm o = true) : Keeps h (h.set o n) := by
  refine ⟨rfl, fun x hx => ?_⟩
  have : x ≠ o := by rintro rfl; exact hi hx
  simp [set, this]

theorem incref_inv {h h' : Heap} {o : Obj} (e : h.incref o = .ok h') :
    Keeps h h' ∧ Adj h h' (fun x => ([o].count x : Nat)) ∧ (h.imm o = true ∨ 0 < h.rc o) := by
  have hl : h.imm o = true ∨ 0 < h.rc o := by
    unfold incref at e
    split at e
    · rename_i h1; exact .inl h1
    · split at e
      · cases e
      · right; omega
  obtain ⟨h2, e2, a2⟩ := incref_ok hl
  rw [e2] at e
  cases e
  refine ⟨?_, a2, hl⟩
  unfold incref at e2
  split at e2
  · cases e2; exact ⟨rfl, fun _ _ => rfl⟩
  · rename_i hi
    split at e2
    · cases e2
    · cases e2; exact set_keeps hi

theorem decref_keeps {h h' : Heap} {o : Obj} (e : h.decref o = .ok h') : Keeps h h' := by
  unfold decref at e
  split at e
  · cases e; exact ⟨rfl, fun _ _ => rfl⟩
  · rename_i hi
    split at e
    · cases e
    · cases e; exact set_keeps hi

theorem increfs_inv {h h' : Heap} {xs : List Obj} (e : h.increfs xs = .ok h') :
    Keeps h h' ∧ Adj h h' (fun x => (xs.count x : Nat)) := by
  induction xs generalizing h with
  | nil =>
    cases e
    exact ⟨⟨rfl, fun _ _ => rfl⟩, (Adj.refl _).congr (by simp)⟩
  | cons o os ih =>
    rw [increfs] at e
    split at e
    · cases e
    · rename_i h1 e1
      obtain ⟨k1, a1, _⟩ := incref_inv e1
      obtain ⟨k2, a2⟩ := ih e
      exact ⟨k1.trans k2, (a1.trans a2).congr (fun x => (count_cons_int o x os).symm)⟩

theorem decrefs_keeps {h h' : Heap} {xs : List Obj} (e : h.decrefs xs = .ok h') : Keeps h h' := by
  induction xs generalizing h with
  | nil => cases e; exact ⟨rfl, fun _ _ => rfl⟩
  | cons o os ih =>
    rw [decrefs] at e
    split at e
    · cases e
    · rename_i h1 e1
      exact (decref_keeps e1).trans (ih e)

theorem ext' {h h' : Heap} (hi : h'.imm = h.imm) (hr : ∀ o, h'.rc o = h.rc o) : h' = h := by
  cases h; cases h'
  simp only at hi hr
  subst hi
  congr
  funext o; exact hr o

/-- Counting references and giving them back changes nothing. -/
theorem undo {h h' : Heap} {xs : List Obj} (e : h.increfs xs = .ok h') : h'.decrefs xs = .ok h := by
  obtain ⟨k1, a1⟩ := increfs_inv e
  obtain ⟨h2, e2, a2⟩ := decrefs_ok (h := h') (xs := xs) (fun o ho => by
    have h3 := a1.2 o (by rw [← a1.1]; exact ho)
    dsimp only at h3
    omega)
  have k2 := decrefs_keeps e2
  have : h2 = h := by
    refine ext' (k2.1.trans k1.1) (fun o => ?_)
    by_cases hi : h.imm o = true
    · exact (k1.trans k2).2 o hi
    · have hi' : h.imm o = false := by simpa using hi
      have h3 := a1.2 o hi'
      have h4 := a2.2 o (by rw [a1.1]; exact hi')
      dsimp only at h3 h4
      omega
  rw [e2, this]

theorem increfs_append (h : Heap) (xs ys : List Obj) :
    h.increfs (xs ++ ys) = (match h.increfs xs with | .error u => .error u | .ok h => h.increfs ys) := by
  induction xs generalizing h with
  | nil => rfl
  | cons o os ih =>
    rw [List.cons_append, increfs, increfs]
    cases h.incref o with
    | error u => rfl
    | ok h => exact ih h

/-- A new reference, given back. -/
theorem gain_undo (h : Heap) (o : Obj) : (h.gain o).decref o = .ok h := by
  unfold gain decref
  by_cases hi : h.imm o = true
  · simp [hi]
  · simp only [if_neg hi]
    have : (h.set o (h.rc o + 1)).imm o = false := by simpa [set] using hi
    simp only [this]
    simp only [Bool.false_eq_true, if_false]
    rw [if_neg (by simp [set])]
    congr 1
    refine ext' rfl (fun x => ?_)
    by_cases e : x = o
    · subst e; simp [set]
    · simp [set, e]

end Verif.Heap

namespace Verif.Refuse

open Verif.Spec

variable {σ ρ α : Type}

theorem shown_lift (r : ρ) (o : Out σ α) : shown (lift r o) = o := by cases o <;> rfl

theorem guarded_spared (ask : σ → ρ → ρ × Bool) (s : σ) (r : ρ) (out : Out σ α) :
    Spared s out (guarded ask s r out) := by
  cases out with
  | ok s' v =>
    unfold guarded
    dsimp only
    rcases h : ask s' r with ⟨r', b⟩
    cases b
    · exact .inr rfl
    · exact .inl rfl
  | exc s' e => exact .inl rfl
  | pending s' v e => exact .inl rfl
  | ub u => exact .inl rfl

theorem guarded_granted {ask : σ → ρ → ρ × Bool} {s : σ} {r : ρ} {out : Out σ α}
    (h : ∀ s' v, out = .ok s' v → (ask s' r).2 = true) : shown (guarded ask s r out) = out := by
  cases out with
  | ok s' v =>
    have := h s' v rfl
    unfold guarded
    dsimp only
    rcases h : ask s' r with ⟨r', b⟩
    rw [h] at this
    dsimp only at this
    subst this
    rfl
  | exc s' e => rfl
  | pending s' v e => rfl
  | ub u => rfl

theorem orDie_granted {ask : ρ → ρ × Bool} {r : ρ} {out : Out σ α} (h : (ask r).2 = true) :
    shown (orDie ask r out) = out := by
  rcases e : ask r with ⟨r', b⟩
  rw [e] at h
  dsimp only at h
  subst h
  cases out <;> simp only [orDie, e, lift, shown]

theorem orDie_refused {ask : ρ → ρ × Bool} {r : ρ} {out : Out σ α} (h : (ask r).2 = false) :
    ∃ u, orDie ask r out = .ub u ∧ ((∀ u, out ≠ .ub u) → u = .terminate) := by
  rcases e : ask r with ⟨r', b⟩
  rw [e] at h
  dsimp only at h
  subst h
  cases out with
  | ub u => exact ⟨u, rfl, fun h => absurd rfl (h u)⟩
  | _ => exact ⟨.terminate, by simp only [orDie, e], fun _ => rfl⟩

/-! ### `*` -/

theorem mulLoop_times (l : List Obj) (n : Nat) (acc : List Obj) (h : Heap) :
    ObjArray.mulLoop l n acc h =
      (match h.increfs (times l n) with | .error u => .error u | .ok h => .ok (acc ++ times l n, h)) := by
  induction n generalizing acc h with
  | zero => simp [ObjArray.mulLoop, times, Heap.increfs]
  | succ n ih =>
    rw [ObjArray.mulLoop, times, Heap.increfs_append]
    cases h.increfs l with
    | error u => rfl
    | ok h =>
      dsimp only
      rw [ih]
      simp [List.append_assoc]

/-- The loop either does all of its work, or leaves the counts as they were. -/
theorem mulPush_spec (one : Nat → ρ → ρ × Bool) (h0 : Heap) (os : List Obj) :
    ∀ (acc : List Obj) (h : Heap) (r : ρ), h0.increfs acc = .ok h →
      (∃ r', mulPush one os acc h r = .ok (r', h0, none)) ∨
      (∃ r', mulPush one os acc h r =
        (match h.increfs os with | .error u => .error u | .ok h => .ok (r', h, some (acc ++ os)))) := by
  induction os with
  | nil => intro acc h r _; exact .inr ⟨r, by simp [mulPush, Heap.increfs]⟩
  | cons o os ih =>
    intro acc h r hh
    rw [mulPush, Heap.increfs]
    rcases e : one acc.length r with ⟨r', b⟩
    cases b
    · left
      exact ⟨r', by dsimp only; rw [Heap.undo hh]⟩
    · dsimp only
      cases e1 : h.incref o with
      | error u => exact .inr ⟨r', rfl⟩
      | ok h1 =>
        dsimp only
        have := ih (acc ++ [o]) h1 r' (by
          rw [Heap.increfs_append, hh]
          dsimp only
          rw [Heap.increfs, e1]
          rfl)
        rcases this with h2 | ⟨r2, h2⟩
        · exact .inl h2
        · exact .inr ⟨r2, by rw [h2]; simp [List.append_assoc]⟩

theorem mulPush_granted (one : Nat → ρ → ρ × Bool) (os : List Obj) :
    ∀ (acc : List Obj) (h : Heap) (r : ρ), (asks one os.length acc.length r).2 = true →
      ∃ r', mulPush one os acc h r =
        (match h.increfs os with | .error u => .error u | .ok h => .ok (r', h, some (acc ++ os))) := by
  induction os with
  | nil => intro acc h r _; exact ⟨r, by simp [mulPush, Heap.increfs]⟩
  | cons o os ih =>
    intro acc h r ha
    rw [List.length_cons, asks] at ha
    rw [mulPush, Heap.increfs]
    rcases e : one acc.length r with ⟨r', b⟩
    rw [e] at ha
    cases b
    · simp at ha
    · dsimp only at ha ⊢
      cases e1 : h.incref o with
      | error u => exact ⟨r', rfl⟩
      | ok h1 =>
        dsimp only
        obtain ⟨r2, h2⟩ := ih (acc ++ [o]) h1 r' (by simpa using ha)
        exact ⟨r2, by rw [h2]; simp [List.append_assoc]⟩

theorem length_times (l : List Obj) (n : Nat) : (times l n).length = l.length * n := by
  induction n with
  | zero => rfl
  | succ n ih => rw [times, List.length_append, ih, Nat.mul_succ, Nat.add_comm]

namespace Arr

theorem mul_spared (m : Machine) (s : St) (n : Int) : Spared s.1 (ObjArray.mul s.1 n) (mul m s n) := by
  unfold mul ObjArray.mul
  dsimp only
  generalize (if n < 0 then (0 : Int) else n) = k
  by_cases hk : k = 0
  · rw [if_pos hk, if_pos hk]; exact .inl rfl
  · rw [if_neg hk, if_neg hk]
    generalize product s.1.vec.length k = p
    rcases e : reserve m p ⟨0, s.2.t⟩ with ⟨r, b⟩
    cases b
    · exact .inr rfl
    · dsimp only
      rw [mulLoop_times]
      rcases mulPush_spec (makeRoom m 1) s.1.heap (times s.1.vec k.toNat) [] s.1.heap r rfl with ⟨r', h⟩ | ⟨r', h⟩
      · rw [h]; exact .inr rfl
      · rw [h]
        cases s.1.heap.increfs (times s.1.vec k.toNat) with
        | error u => exact .inl rfl
        | ok h => exact .inl rfl

theorem step_spared (cfg : Cfg) (H : OHost) (m : Machine) (fuel : Nat) (s : St) (op : OOp) (hint : Nat)
    (hop : Sparing op = true) : Spared s.1 (ObjArray.step cfg H fuel s.1 op) (step cfg H m fuel s op hint) := by
  cases op with
  | append o => exact guarded_spared ..
  | insert i o => exact guarded_spared ..
  | resize a => exact guarded_spared ..
  | copy => exact guarded_spared ..
  | extend => simp [Sparing] at hop
  | iadd => simp [Sparing] at hop
  | imul => simp [Sparing] at hop
  | setSlice => simp [Sparing] at hop
  | mul n => exact mul_spared m s n
  | rmul a =>
    show Spared s.1 (ObjArray.rmul s.1 a) (rmul m s a)
    unfold rmul ObjArray.rmul
    rcases asLong a with ⟨n, _ | e⟩
    · exact mul_spared m s n
    · exact .inl rfl
  | _ => first | exact .inl rfl | exact .inl (shown_lift s.2 (ObjArray.step cfg H fuel s.1 _))

end Arr

namespace Lnk

theorem mul_spared (m : Machine) (s : St) (n : Int) : Spared s.1 (ObjLinked.mul s.1 n) (mul m s n) := by
  unfold mul ObjLinked.mul
  dsimp only
  generalize (if n < 0 then (0 : Int) else n) = k
  by_cases hk : k = 0
  · rw [if_pos hk, if_pos hk]; exact .inl rfl
  · rw [if_neg hk, if_neg hk]
    rw [mulLoop_times]
    rcases mulPush_spec (node m) s.1.heap (times (ObjLinked.vec s.1) k.toNat) [] s.1.heap s.2 rfl with ⟨r', h⟩ | ⟨r', h⟩
    · rw [h]; exact .inr rfl
    · rw [h]
      cases s.1.heap.increfs (times (ObjLinked.vec s.1) k.toNat) with
      | error u => exact .inl rfl
      | ok h => exact .inl rfl

theorem step_spared (H : OHost) (strict : Bool) (m : Machine) (s : St) (op : OOp)
    (hop : Sparing op = true) : Spared s.1 (ObjLinked.step H strict s.1 op) (step H strict m s op) := by
  cases op with
  | append o => exact guarded_spared ..
  | insert i o => exact guarded_spared ..
  | copy => exact guarded_spared ..
  | extend => simp [Sparing] at hop
  | iadd => simp [Sparing] at hop
  | imul => simp [Sparing] at hop
  | setSlice => simp [Sparing] at hop
  | mul n => exact mul_spared m s n
  | rmul a =>
    show Spared s.1 (ObjLinked.rmul s.1 a) (rmul m s a)
    unfold rmul ObjLinked.rmul
    rcases asLong a with ⟨n, _ | e⟩
    · exact mul_spared m s n
    · exact .inl rfl
  | _ => first | exact .inl rfl | exact .inl (shown_lift s.2 (ObjLinked.step H strict s.1 _))

end Lnk

/-- A history on a machine that refuses is a history of the calls that were not refused. -/
theorem history_spared {τ : Type} (big : σ × ρ → τ → Out (σ × ρ) α) (small : σ → τ → Out σ α) (cs : List τ)
    (h : ∀ s, ∀ c ∈ cs, Spared s.1 (small s.1 c) (big s c)) (s s' : σ × ρ) (e : history big s cs = some s') :
    ∃ ds, ds.Sublist cs ∧ history small s.1 ds = some s'.1 := by
  induction cs generalizing s with
  | nil => cases e; exact ⟨[], List.Sublist.refl _, rfl⟩
  | cons c cs ih =>
    have ih := ih (fun s c hc => h s c (by simp [hc]))
    rw [history] at e
    have h1 := h s c (by simp)
    rcases h1 with h1 | h1
    · rcases e2 : big s c with ⟨t, v⟩ | ⟨t, x⟩ | ⟨t, v, x⟩ | u
      · rw [e2] at e h1
        obtain ⟨ds, h3, h4⟩ := ih t e
        exact ⟨c :: ds, h3.cons_cons c, by rw [history, ← h1]; exact h4⟩
      · rw [e2] at e h1
        obtain ⟨ds, h3, h4⟩ := ih t e
        exact ⟨c :: ds, h3.cons_cons c, by rw [history, ← h1]; exact h4⟩
      · rw [e2] at e h1
        obtain ⟨ds, h3, h4⟩ := ih t e
        exact ⟨c :: ds, h3.cons_cons c, by rw [history, ← h1]; exact h4⟩
      · rw [e2] at e; cases e
    · rcases e2 : big s c with ⟨t, v⟩ | ⟨t, x⟩ | ⟨t, v, x⟩ | u
      · rw [e2] at h1; cases h1
      · rw [e2] at e h1
        obtain ⟨ds, h3, h4⟩ := ih t e
        have : t.1 = s.1 := by simp only [shown] at h1; injection h1
        exact ⟨ds, h3.cons c, by rw [← this]; exact h4⟩
      · rw [e2] at h1; cases h1
      · rw [e2] at e; cases e

end Verif.Refuse
