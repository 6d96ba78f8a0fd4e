import Verif.Lemmas.GfxMain

/-!
# `gfx::timsort`: `minGallop` stays within `int`

Every decrement of `minGallop` within a merge is paid for by an element of either run, so a merge costs at most the
length of its shorter run, and all merges together at most `half n`, whatever their order.
-/

namespace Verif.Gfx

open Verif.Spec CPySort

variable {σ ε α β : Type} {h : Host σ ε}

/-- Partial correctness: if `m` run from `s` does not fault, its result satisfies `Q`. -/
def Wlp (m : M σ ε α) (s : St σ ε) (Q : α → St σ ε → Prop) : Prop := ∀ a s', m s = .ok (a, s') → Q a s'

theorem Wlp.mono {m : M σ ε α} {s : St σ ε} {Q Q' : α → St σ ε → Prop} (w : Wlp m s Q)
    (hq : ∀ a s', Q a s' → Q' a s') : Wlp m s Q' := fun a s' e => hq a s' (w a s' e)

theorem Wlp.and {m : M σ ε α} {s : St σ ε} {Q Q' : α → St σ ε → Prop} (w : Wlp m s Q) (w' : Wlp m s Q') :
    Wlp m s (fun a s' => Q a s' ∧ Q' a s') := fun a s' e => ⟨w a s' e, w' a s' e⟩

theorem wlp_bind {m : M σ ε α} {f : α → M σ ε β} {s : St σ ε} {Q : β → St σ ε → Prop}
    (w : Wlp m s (fun a s' => Wlp (f a) s' Q)) : Wlp (m >>= f) s Q := by
  intro b s' e
  simp only [bind, StateT.bind, Except.bind] at e
  split at e
  · cases e
  · rename_i v hv
    exact w v.1 v.2 hv b s' e

theorem wlp_pure {a : α} {s : St σ ε} {Q : α → St σ ε → Prop} (q : Q a s) : Wlp (pure a) s Q := by
  intro b s' e
  cases e
  exact q

theorem wlp_error {f : Fault} {s : St σ ε} {Q : α → St σ ε → Prop} : Wlp (fun _ => .error f : M σ ε α) s Q := by
  intro b s' e
  cases e

theorem wlp_get {s : St σ ε} {Q : St σ ε → St σ ε → Prop} (q : Q s s) : Wlp (get : M σ ε (St σ ε)) s Q := by
  intro b s' e
  cases e
  exact q

theorem wlp_modify {f : St σ ε → St σ ε} {s : St σ ε} {Q : Unit → St σ ε → Prop} (q : Q () (f s)) :
    Wlp (modify f : M σ ε Unit) s Q := by
  intro b s' e
  cases e
  exact q

theorem wlp_check {b : Bool} {f : Fault} {s : St σ ε} {Q : Unit → St σ ε → Prop} (q : b = true → Q () s) :
    Wlp (check b f) s Q := by
  intro a s' e
  unfold check at e
  split at e <;> cases e
  exact q ‹_›

/-- The registers this file is about. -/
structure Same (s s' : St σ ε) : Prop where
  mg : s'.minGallop = s.minGallop
  al : s'.alloced = s.alloced
  pd : s'.pending = s.pending

theorem Same.refl (s : St σ ε) : Same s s := ⟨rfl, rfl, rfl⟩

theorem Same.trans {a b c : St σ ε} (x : Same a b) (y : Same b c) : Same a c :=
  ⟨y.mg.trans x.mg, y.al.trans x.al, y.pd.trans x.pd⟩

/-- `m` does not touch them. -/
def Keeps (m : M σ ε α) : Prop := ∀ s a s', m s = .ok (a, s') → Same s s'

theorem Keeps.wlp {m : M σ ε α} (k : Keeps m) (s : St σ ε) : Wlp m s (fun _ s' => Same s s') := k s

theorem keeps_pure (a : α) : Keeps (pure a : M σ ε α) := by
  intro s b s' e
  cases e
  exact Same.refl _

theorem keeps_bind {m : M σ ε α} {f : α → M σ ε β} (hm : Keeps m) (hf : ∀ a, Keeps (f a)) : Keeps (m >>= f) := by
  intro s b s' e
  simp only [bind, StateT.bind, Except.bind] at e
  split at e
  · cases e
  · rename_i v hv
    exact (hm s v.1 v.2 hv).trans (hf v.1 v.2 b s' e)

theorem keeps_error (f : Fault) : Keeps (fun _ => .error f : M σ ε α) := by
  intro s a s' e
  cases e

theorem keeps_get : Keeps (get : M σ ε (St σ ε)) := by
  intro s a s' e
  cases e
  exact Same.refl _

theorem keeps_check (b : Bool) (f : Fault) : Keeps (check b f : M σ ε Unit) := by
  intro s a s' e
  unfold check at e
  split at e <;> cases e
  exact Same.refl _

theorem keeps_rd (a : List ε) (i : Int) : Keeps (rd a i : M σ ε ε) := by
  intro s b s' e
  unfold rd at e
  split at e
  · cases e
  · split at e <;> cases e
    exact Same.refl _

theorem keeps_rdm (i : Int) : Keeps (rdm i : M σ ε ε) := by
  intro s b s' e
  exact keeps_rd s.mem i s b s' e

theorem keeps_wr (i : Int) (x : ε) : Keeps (wr i x : M σ ε Unit) := by
  intro s b s' e
  unfold wr at e
  split at e <;> cases e
  exact ⟨rfl, rfl, rfl⟩

theorem keeps_move (d i n : Int) : Keeps (move d i n : M σ ε Unit) := by
  intro s b s' e
  unfold move at e
  split at e <;> cases e
  exact ⟨rfl, rfl, rfl⟩

theorem keeps_store (t : List ε) (d i n : Int) : Keeps (store t d i n : M σ ε Unit) := by
  intro s b s' e
  unfold store at e
  split at e <;> cases e
  exact ⟨rfl, rfl, rfl⟩

theorem keeps_toTmp (i n : Int) : Keeps (toTmp i n : M σ ε (List ε)) := by
  intro s b s' e
  unfold toTmp at e
  split at e <;> cases e
  exact Same.refl _

theorem keeps_islt (x y : ε) : Keeps (islt h x y) := by
  intro s b s' e
  unfold islt at e
  split at e <;> cases e <;> exact ⟨rfl, rfl, rfl⟩

/-- Follow the structure of the code. -/
syntax "keeps" : tactic
syntax "keeps" "[" term,+ "]" : tactic
macro_rules
  | `(tactic| keeps) => `(tactic| keeps [keeps_get])
  | `(tactic| keeps [$[$ts],*]) => `(tactic|
      repeat' first
        | exact keeps_pure _
        | exact keeps_error _
        | exact keeps_get
        | exact keeps_check _ _
        | exact keeps_rd _ _
        | exact keeps_rdm _
        | exact keeps_wr _ _
        | exact keeps_move _ _ _
        | exact keeps_store _ _ _ _
        | exact keeps_toTmp _ _
        | exact keeps_islt _ _
        | (first $[| with_reducible apply $ts]*)
        | with_reducible apply keeps_bind
        | with_reducible intro _
        | dsimp only
        | split)

theorem keeps_isnlt (x y : ε) : Keeps (isnlt h x y) := by
  unfold isnlt
  keeps

theorem keeps_reverseLoop : ∀ f lo hi, Keeps (reverseLoop f lo hi : M σ ε Unit) := by
  intro f
  induction f with
  | zero => intro lo hi; unfold reverseLoop; keeps
  | succ f ih => intro lo hi; unfold reverseLoop; keeps [ih]

theorem keeps_scan (probe : Int → M σ ε (Option Bool)) (hp : ∀ i, Keeps (probe i)) (m : Int) :
    ∀ f l o, Keeps (scan probe m f l o) := by
  intro f
  induction f with
  | zero => intro l o; unfold scan; keeps
  | succ f ih => intro l o; unfold scan; keeps [ih, hp]

theorem keeps_bisect (probe : Int → M σ ε (Option Bool)) (hp : ∀ i, Keeps (probe i)) :
    ∀ f l o, Keeps (bisect probe f l o) := by
  intro f
  induction f with
  | zero => intro l o; unfold bisect; keeps
  | succ f ih => intro l o; unfold bisect; keeps [ih, hp]

theorem keeps_gallopEnd (probe : Int → M σ ε (Option Bool)) (hp : ∀ i, Keeps (probe i)) (n l o : Int) :
    Keeps (gallopEnd probe n l o) := by
  unfold gallopEnd
  keeps [keeps_bisect, hp]

theorem keeps_gallopRight (key : ε) (a : List ε) (b n i : Int) : Keeps (gallopRight h key a b n i) := by
  unfold gallopRight
  keeps [keeps_scan, keeps_gallopEnd, keeps_isnlt]

theorem keeps_gallopLeft (key : ε) (a : List ε) (b n i : Int) : Keeps (gallopLeft h key a b n i) := by
  unfold gallopLeft
  keeps [keeps_scan, keeps_gallopEnd, keeps_isnlt]

theorem keeps_ascend (lo nrem : Int) : ∀ f n, Keeps (ascend h lo nrem f n) := by
  intro f
  induction f with
  | zero => intro n; unfold ascend; keeps
  | succ f ih => intro n; unfold ascend; keeps [ih]

theorem keeps_descend (lo nrem : Int) : ∀ f n, Keeps (descend h lo nrem f n) := by
  intro f
  induction f with
  | zero => intro n; unfold descend; keeps
  | succ f ih => intro n; unfold descend; keeps [ih]

theorem keeps_countRun (lo nrem : Int) : Keeps (countRun h lo nrem) := by
  unfold countRun reverseSlice
  keeps [keeps_ascend, keeps_descend, keeps_reverseLoop]

theorem keeps_binLoop (lo : Int) (p : ε) : ∀ f l r, Keeps (binLoop h lo p f l r) := by
  intro f
  induction f with
  | zero => intro l r; unfold binLoop; keeps
  | succ f ih => intro l r; unfold binLoop; keeps [ih]

theorem keeps_slide (lo l : Int) : ∀ f m, Keeps (slide lo l f m : M σ ε Unit) := by
  intro f
  induction f with
  | zero => intro m; unfold slide; keeps
  | succ f ih => intro m; unfold slide; keeps [ih]

theorem keeps_binaryLoop (lo n : Int) : ∀ f ok, Keeps (binaryLoop h lo n f ok) := by
  intro f
  induction f with
  | zero => intro m; unfold binaryLoop; keeps
  | succ f ih => intro m; unfold binaryLoop; keeps [ih, keeps_binLoop, keeps_slide]

theorem keeps_binarySort (lo n ok : Int) : Keeps (binarySort h lo n ok) := by
  unfold binarySort
  keeps [keeps_binaryLoop]

theorem keeps_loSimple (t : List ε) (mg : Int) : ∀ f v a b, Keeps (loSimple h t mg f v a b) := by
  intro f
  induction f with
  | zero => intro v a b; unfold loSimple; keeps
  | succ f ih => intro v a b; unfold loSimple; keeps [ih]

theorem keeps_loGallopB (t : List ε) (v : Vars) : Keeps (loGallopB h t v) := by
  unfold loGallopB
  keeps [keeps_gallopLeft]

theorem keeps_hiSimple (t : List ε) (mg : Int) : ∀ f v a b, Keeps (hiSimple h t mg f v a b) := by
  intro f
  induction f with
  | zero => intro v a b; unfold hiSimple; keeps
  | succ f ih => intro v a b; unfold hiSimple; keeps [ih]

theorem keeps_hiGallopB (t : List ε) (v : Vars) : Keeps (hiGallopB h t v) := by
  unfold hiGallopB
  keeps [keeps_gallopLeft]

theorem keeps_rotateLeft (a b : Int) : Keeps (rotateLeft a b : M σ ε Unit) := by
  unfold rotateLeft
  keeps

theorem keeps_rotateRight (a b : Int) : Keeps (rotateRight a b : M σ ε Unit) := by
  unfold rotateRight
  keeps

theorem keeps_loEpilogue (t : List ε) (v : Vars) : Keeps (loEpilogue t v : M σ ε (Option Unit)) := by
  unfold loEpilogue
  keeps

theorem keeps_hiEpilogue (t : List ε) (v : Vars) : Keeps (hiEpilogue t v : M σ ε (Option Unit)) := by
  unfold hiEpilogue
  keeps

/-! ## What the searches and the loops return -/

/-- Every result of `m` satisfies `Q`. -/
def Res (m : M σ ε α) (Q : α → Prop) : Prop := ∀ s a s', m s = .ok (a, s') → Q a

theorem Res.wlp {m : M σ ε α} {Q : α → Prop} (r : Res m Q) (s : St σ ε) : Wlp m s (fun a _ => Q a) := r s

theorem res_pure {a : α} {Q : α → Prop} (q : Q a) : Res (pure a : M σ ε α) Q := by
  intro s b s' e
  cases e
  exact q

theorem res_error {f : Fault} {Q : α → Prop} : Res (fun _ => .error f : M σ ε α) Q := by
  intro s b s' e
  cases e

theorem res_bind {m : M σ ε α} {f : α → M σ ε β} {Q : β → Prop} (hf : ∀ a, Res (f a) Q) : Res (m >>= f) Q := by
  intro s b s' e
  simp only [bind, StateT.bind, Except.bind] at e
  split at e
  · cases e
  · rename_i v hv
    exact hf v.1 v.2 b s' e

theorem res_bind' {m : M σ ε α} {f : α → M σ ε β} {P : α → Prop} {Q : β → Prop} (hm : Res m P)
    (hf : ∀ a, P a → Res (f a) Q) : Res (m >>= f) Q := by
  intro s b s' e
  simp only [bind, StateT.bind, Except.bind] at e
  split at e
  · cases e
  · rename_i v hv
    exact hf v.1 (hm s v.1 v.2 hv) v.2 b s' e

theorem res_check (b : Bool) (f : Fault) : Res (check b f : M σ ε Unit) (fun _ => b = true) := by
  intro s a s' e
  unfold check at e
  split at e <;> cases e
  assumption

theorem res_bisect (probe : Int → M σ ε (Option Bool)) : ∀ f l o,
    Res (bisect probe f l o) (fun r => ∀ k, r = some k → l ≤ k ∧ k ≤ o) := by
  intro f
  induction f with
  | zero => intro l o; exact res_error
  | succ f ih =>
    intro l o
    unfold bisect
    split
    · rename_i hlt
      simp only
      refine res_bind (fun r => ?_)
      match r with
      | none => exact res_pure (by simp)
      | some true =>
        intro s a s' e k hk
        have := ih _ _ s a s' e k hk
        omega
      | some false =>
        intro s a s' e k hk
        have := ih _ _ s a s' e k hk
        omega
    · refine res_bind' (res_check _ _) (fun _ hc => res_pure ?_)
      simp only [decide_eq_true_eq] at hc
      intro k hk
      cases hk
      omega

theorem res_gallopEnd (probe : Int → M σ ε (Option Bool)) (n l o : Int) :
    Res (gallopEnd probe n l o) (fun r => ∀ k, r = some k → 0 ≤ k ∧ k ≤ n) := by
  unfold gallopEnd
  refine res_bind' (res_check _ _) (fun _ hc => ?_)
  simp only [decide_eq_true_eq] at hc
  intro s a s' e k hk
  have := res_bisect _ _ _ _ s a s' e k hk
  omega

theorem res_gallopRight (key : ε) (a : List ε) (b n i : Int) :
    Res (gallopRight h key a b n i) (fun r => ∀ k, r = some k → 0 ≤ k ∧ k ≤ n) := by
  unfold gallopRight
  refine res_bind (fun _ => ?_)
  refine res_bind (fun _ => res_bind (fun r => ?_))
  match r with
  | none => exact res_pure (by simp)
  | some true =>
    refine res_bind (fun q => ?_)
    match q with
    | none => exact res_pure (by simp)
    | some (_, _) => exact res_gallopEnd _ _ _ _
  | some false =>
    refine res_bind (fun q => ?_)
    match q with
    | none => exact res_pure (by simp)
    | some (_, _) => exact res_gallopEnd _ _ _ _

theorem res_gallopLeft (key : ε) (a : List ε) (b n i : Int) :
    Res (gallopLeft h key a b n i) (fun r => ∀ k, r = some k → 0 ≤ k ∧ k ≤ n) := by
  unfold gallopLeft
  refine res_bind (fun _ => ?_)
  refine res_bind (fun _ => res_bind (fun r => ?_))
  match r with
  | none => exact res_pure (by simp)
  | some true =>
    refine res_bind (fun q => ?_)
    match q with
    | none => exact res_pure (by simp)
    | some (_, _) => exact res_gallopEnd _ _ _ _
  | some false =>
    refine res_bind (fun q => ?_)
    match q with
    | none => exact res_pure (by simp)
    | some (_, _) => exact res_gallopEnd _ _ _ _

theorem res_loSimple (t : List ε) (mg : Int) : ∀ f v a b,
    Res (loSimple h t mg f v a b) (fun r => r.2.na ≤ v.na ∧ r.2.nb ≤ v.nb) := by
  intro f
  induction f with
  | zero => intro v a b; exact res_error
  | succ f ih =>
    intro v a b
    have step : ∀ (v' : Vars) a' b', v'.na ≤ v.na → v'.nb ≤ v.nb →
        Res (loSimple h t mg f v' a' b') (fun r => r.2.na ≤ v.na ∧ r.2.nb ≤ v.nb) := by
      intro v' a' b' h1 h2 s r s' e
      have := ih v' a' b' s r s' e
      omega
    unfold loSimple
    refine res_bind (fun _ => res_bind (fun _ => res_bind (fun _ => res_bind (fun r => ?_))))
    match r with
    | none => exact res_pure (by simp)
    | some true =>
      refine res_bind (fun _ => res_bind (fun _ => ?_))
      simp only
      split
      · exact res_pure ⟨by simp only; omega, by simp only; omega⟩
      · split
        · exact res_pure ⟨by simp only; omega, by simp only; omega⟩
        · exact step _ _ _ (by simp only; omega) (by simp only; omega)
    | some false =>
      refine res_bind (fun _ => res_bind (fun _ => ?_))
      simp only
      split
      · exact res_pure ⟨by simp only; omega, by simp only; omega⟩
      · split
        · exact res_pure ⟨by simp only; omega, by simp only; omega⟩
        · exact step _ _ _ (by simp only; omega) (by simp only; omega)

theorem res_hiSimple (t : List ε) (mg : Int) : ∀ f v a b,
    Res (hiSimple h t mg f v a b) (fun r => r.2.na ≤ v.na ∧ r.2.nb ≤ v.nb) := by
  intro f
  induction f with
  | zero => intro v a b; exact res_error
  | succ f ih =>
    intro v a b
    have step : ∀ (v' : Vars) a' b', v'.na ≤ v.na → v'.nb ≤ v.nb →
        Res (hiSimple h t mg f v' a' b') (fun r => r.2.na ≤ v.na ∧ r.2.nb ≤ v.nb) := by
      intro v' a' b' h1 h2 s r s' e
      have := ih v' a' b' s r s' e
      omega
    unfold hiSimple
    refine res_bind (fun _ => res_bind (fun _ => res_bind (fun _ => res_bind (fun r => ?_))))
    match r with
    | none => exact res_pure (by simp)
    | some true =>
      refine res_bind (fun _ => res_bind (fun _ => ?_))
      simp only
      split
      · exact res_pure ⟨by simp only; omega, by simp only; omega⟩
      · split
        · exact res_pure ⟨by simp only; omega, by simp only; omega⟩
        · exact step _ _ _ (by simp only; omega) (by simp only; omega)
    | some false =>
      refine res_bind (fun _ => res_bind (fun _ => ?_))
      simp only
      split
      · exact res_pure ⟨by simp only; omega, by simp only; omega⟩
      · split
        · exact res_pure ⟨by simp only; omega, by simp only; omega⟩
        · exact step _ _ _ (by simp only; omega) (by simp only; omega)

/-- The shape the `do` notation gives to a conditional statement followed by more code. -/
theorem res_join {c : Prop} [Decidable c] {m : M σ ε PUnit} {k : M σ ε α} {Q : α → Prop} (hk : Res k Q) :
    Res (if c then m >>= fun _ => k else k) Q := by
  split
  · exact res_bind (fun _ => hk)
  · exact hk

/-- A full round of galloping uses up an element of either run. -/
def Used (v : Vars) (r : Option Exit × Vars × Int) : Prop :=
  r.1 = none → r.2.1.na ≤ v.na - 1 ∧ r.2.1.nb ≤ v.nb - 1 ∧ 0 ≤ r.2.1.na ∧ 0 ≤ r.2.1.nb

theorem res_loGallopB (t : List ε) (v : Vars) (ha : 1 < v.na) : Res (loGallopB h t v) (Used v) := by
  unfold loGallopB
  refine res_bind (fun _ => res_bind (fun _ => ?_))
  simp only
  split
  · exact res_pure (by simp [Used])
  · refine res_bind (fun _ => res_bind (fun _ => res_bind' (res_gallopLeft _ _ _ _ _) (fun r hr => ?_)))
    match r, hr with
    | none, _ => exact res_pure (by simp [Used])
    | some k, hr =>
      have := hr k rfl
      simp only
      refine res_join ?_
      split
      · exact res_pure (by simp [Used])
      · refine res_bind (fun _ => res_bind (fun _ => ?_))
        split
        · exact res_pure (by simp [Used])
        · refine res_pure ?_
          simp only [Used]
          omega

theorem res_hiGallopB (t : List ε) (v : Vars) (ha : 0 < v.na) : Res (hiGallopB h t v) (Used v) := by
  unfold hiGallopB
  refine res_bind (fun _ => res_bind (fun _ => ?_))
  simp only
  split
  · exact res_pure (by simp [Used])
  · refine res_bind (fun _ => res_bind' (res_gallopLeft _ _ _ _ _) (fun r hr => ?_))
    match r, hr with
    | none, _ => exact res_pure (by simp [Used])
    | some k, hr =>
      have := hr k rfl
      simp only
      refine res_join ?_
      split
      · exact res_pure (by simp [Used])
      · split
        · exact res_pure (by simp [Used])
        · refine res_bind (fun _ => res_bind (fun _ => ?_))
          split
          · exact res_pure (by simp [Used])
          · refine res_pure ?_
            simp only [Used]
            omega

/-! ## `minGallop` in a merge -/

theorem isInt_iff (x : Int) : isInt x = true ↔ -2 ^ 31 ≤ x ∧ x < 2 ^ 31 := by
  unfold isInt
  simp

theorem wlp_dec {mg : Int} {s : St σ ε} {Q : Int → St σ ε → Prop} (r : -2 ^ 31 ≤ mg - 1 ∧ mg - 1 < 2 ^ 31)
    (q : ∀ s', Same s s' → Q (mg - 1) s') : Wlp (dec mg) s Q := by
  unfold dec note
  refine wlp_bind (wlp_modify ?_)
  refine wlp_pure (q _ ⟨rfl, ?_, rfl⟩)
  simp only
  rw [if_pos ((isInt_iff _).2 r)]

theorem wlp_bump {mg : Int} {s : St σ ε} {Q : Int → St σ ε → Prop} (r : mg + 2 < 2 ^ 31)
    (q : ∀ s', Same s s' → Q ((if mg < 0 then 0 else mg) + 2) s') : Wlp (bump mg) s Q := by
  unfold bump note
  refine wlp_bind (wlp_modify ?_)
  refine wlp_pure (q _ ⟨rfl, ?_, rfl⟩)
  simp only
  rw [if_pos ((isInt_iff _).2 ?_)]
  split <;> omega

theorem wlp_join {c : Prop} [Decidable c] {m : M σ ε PUnit} {k : M σ ε α} {s : St σ ε} {Q : α → St σ ε → Prop}
    (hm : Keeps m) (hk : ∀ s', Same s s' → Wlp k s' Q) : Wlp (if c then m >>= fun _ => k else k) s Q := by
  split
  · exact wlp_bind ((hm.wlp s).mono (fun _ s' e => hk s' e))
  · exact hk s (Same.refl s)

/-- What a number of full galloping rounds do. -/
def Round (v : Vars) (mg : Int) (v' : Vars) (mg' : Int) : Prop :=
  v'.na ≤ v.na ∧ v'.nb ≤ v.nb ∧ 0 ≤ v'.na ∧ 0 ≤ v'.nb ∧ mg - min v.na v.nb ≤ mg' - min v'.na v'.nb

theorem wlp_loGallop (t : List ε) : ∀ f v mg (s : St σ ε), mg < 2 ^ 31 → -2 ^ 31 ≤ mg - min v.na v.nb →
    Wlp (loGallop h t f v mg) s (fun r s' => Same s s' ∧ r.2.2 ≤ mg ∧
      (r.1 ≠ none → mg - min v.na v.nb ≤ r.2.2) ∧
      (r.1 = none → Round v mg r.2.1 r.2.2)) := by
  intro f
  induction f with
  | zero => intro v mg s _ _; unfold loGallop; exact wlp_error
  | succ f ih =>
    intro v mg s hmg hlo
    unfold loGallop
    refine wlp_bind (wlp_check (fun hc => ?_))
    simp only [decide_eq_true_eq] at hc
    refine wlp_bind (((keeps_rdm _).wlp _).mono ?_)
    intro x s1 e1
    refine wlp_bind (((keeps_gallopRight _ _ _ _ _).wlp _).and ((res_gallopRight _ _ _ _ _).wlp _) |>.mono ?_)
    intro r s2 ⟨e2, hr⟩
    match r, hr with
    | none, _ =>
      refine wlp_pure ⟨e1.trans e2, ?_, ?_, ?_⟩
      · simp only; omega
      · simp only; omega
      · simp
    | some k, hr =>
      have hk := hr k rfl
      simp only
      refine wlp_join (Q := _) (keeps_store _ _ _ _) (fun s3 e3 => ?_)
      split
      · refine wlp_pure ⟨(e1.trans e2).trans e3, ?_, ?_, ?_⟩
        · simp only; omega
        · simp only; omega
        · simp
      · rename_i hne
        have hna : 1 < v.na - k := by omega
        refine wlp_bind (((keeps_loGallopB _ _).wlp _).and ((res_loGallopB t _ hna).wlp _) |>.mono ?_)
        intro q s4 ⟨e4, hq⟩
        have e14 := ((e1.trans e2).trans e3).trans e4
        obtain ⟨ex, v', c2⟩ := q
        match ex, hq with
        | some e, _ =>
          refine wlp_pure ⟨e14, ?_, ?_, ?_⟩
          · simp only; omega
          · simp only; omega
          · simp
        | none, hq =>
          have hq := hq rfl
          simp only at hq
          simp only
          refine wlp_bind (wlp_dec (by omega) (fun s5 e5 => ?_))
          split
          · refine (ih v' (mg - 1) s5 (by omega) (by omega)).mono ?_
            intro r s6 ⟨e6, h1, h2, h3⟩
            refine ⟨(e14.trans e5).trans e6, by omega, fun hn => by have := h2 hn; omega, fun hn => ?_⟩
            have := h3 hn
            unfold Round at this ⊢
            omega
          · refine wlp_pure ⟨e14.trans e5, ?_, ?_, ?_⟩
            · simp only; omega
            · simp
            · intro _
              simp only [Round]
              omega

theorem wlp_loOuter (t : List ε) : ∀ (f : Nat) (v : Vars) (mg L : Int) (s : St σ ε), L ≤ 0 → L ≤ mg → 0 ≤ v.na → 0 ≤ v.nb →
    -2 ^ 31 ≤ L - min v.na v.nb → mg + 2 * (f : Int) < 2 ^ 31 → 2 * (f : Int) < 2 ^ 31 →
    Wlp (loOuter h t f v mg) s (fun r s' => Same s s' ∧ L - min v.na v.nb ≤ r.2.2) := by
  intro f
  induction f with
  | zero => intro v mg L s _ _ _ _ _ _ _; unfold loOuter; exact wlp_error
  | succ f ih =>
    intro v mg L s hL hmg ha hb hlo hup hf
    unfold loOuter
    refine wlp_bind (((keeps_loSimple _ _ _ _ _ _).wlp _).and ((res_loSimple _ _ _ _ _ _).wlp _) |>.mono ?_)
    intro q s1 ⟨e1, hq⟩
    obtain ⟨ex, v'⟩ := q
    simp only at hq
    match ex with
    | some e => exact wlp_pure ⟨e1, by simp only; omega⟩
    | none =>
      simp only
      refine wlp_bind ((wlp_loGallop t  _ v' mg s1 (by omega) (by omega)).mono ?_)
      intro q s2 ⟨e2, h1, h2, h3⟩
      obtain ⟨ex, v2, mg2⟩ := q
      simp only at h1 h2 h3
      match ex, h2, h3 with
      | some e, h2, _ =>
        have := h2 (by simp)
        exact wlp_pure ⟨e1.trans e2, by simp only; omega⟩
      | none, _, h3 =>
        have h3 := h3 rfl
        unfold Round at h3
        simp only
        refine wlp_bind (wlp_bump (by omega) (fun s3 e3 => ?_))
        have key := ih v2 ((if mg2 < 0 then 0 else mg2) + 2) (L - min v'.na v'.nb + min v2.na v2.nb) s3
          (by omega) (by split <;> omega) (by omega) (by omega) (by omega) (by split <;> omega) (by omega)
        refine key.mono ?_
        intro r s4 ⟨e4, h4⟩
        exact ⟨((e1.trans e2).trans e3).trans e4, by omega⟩

theorem wlp_hiGallop (t : List ε) (ba : Int) : ∀ f v mg (s : St σ ε), mg < 2 ^ 31 → -2 ^ 31 ≤ mg - min v.na v.nb →
    Wlp (hiGallop h t ba f v mg) s (fun r s' => Same s s' ∧ r.2.2 ≤ mg ∧
      (r.1 ≠ none → mg - min v.na v.nb ≤ r.2.2) ∧
      (r.1 = none → Round v mg r.2.1 r.2.2)) := by
  intro f
  induction f with
  | zero => intro v mg s _ _; unfold hiGallop; exact wlp_error
  | succ f ih =>
    intro v mg s hmg hlo
    unfold hiGallop
    refine wlp_bind (wlp_check (fun hc => ?_))
    simp only [decide_eq_true_eq] at hc
    refine wlp_bind (((keeps_rd _ _).wlp _).mono ?_)
    intro x s1 e1
    refine wlp_bind (wlp_get ?_)
    refine wlp_bind (((keeps_gallopRight _ _ _ _ _).wlp _).and ((res_gallopRight _ _ _ _ _).wlp _) |>.mono ?_)
    intro r s2 ⟨e2, hr⟩
    match r, hr with
    | none, _ =>
      refine wlp_pure ⟨e1.trans e2, ?_, ?_, ?_⟩
      · simp only; omega
      · simp only; omega
      · simp
    | some k, hr =>
      have hk := hr k rfl
      simp only
      refine wlp_join (Q := _) (keeps_move _ _ _) (fun s3 e3 => ?_)
      split
      · refine wlp_pure ⟨(e1.trans e2).trans e3, ?_, ?_, ?_⟩
        · simp only; omega
        · simp only; omega
        · simp
      · rename_i hne
        have hna : 0 < v.na - (v.na - k) := by omega
        refine wlp_bind (((keeps_hiGallopB _ _).wlp _).and ((res_hiGallopB t _ hna).wlp _) |>.mono ?_)
        intro q s4 ⟨e4, hq⟩
        have e14 := ((e1.trans e2).trans e3).trans e4
        obtain ⟨ex, v', c2⟩ := q
        match ex, hq with
        | some e, _ =>
          refine wlp_pure ⟨e14, ?_, ?_, ?_⟩
          · simp only; omega
          · simp only; omega
          · simp
        | none, hq =>
          have hq := hq rfl
          simp only at hq
          simp only
          refine wlp_bind (wlp_dec (by omega) (fun s5 e5 => ?_))
          split
          · refine (ih v' (mg - 1) s5 (by omega) (by omega)).mono ?_
            intro r s6 ⟨e6, h1, h2, h3⟩
            refine ⟨(e14.trans e5).trans e6, by omega, fun hn => by have := h2 hn; omega, fun hn => ?_⟩
            have := h3 hn
            unfold Round at this ⊢
            omega
          · refine wlp_pure ⟨e14.trans e5, ?_, ?_, ?_⟩
            · simp only; omega
            · simp
            · intro _
              simp only [Round]
              omega

theorem wlp_hiOuter (t : List ε) (ba : Int) : ∀ (f : Nat) (v : Vars) (mg L : Int) (s : St σ ε), L ≤ 0 → L ≤ mg → 0 ≤ v.na → 0 ≤ v.nb →
    -2 ^ 31 ≤ L - min v.na v.nb → mg + 2 * (f : Int) < 2 ^ 31 → 2 * (f : Int) < 2 ^ 31 →
    Wlp (hiOuter h t ba f v mg) s (fun r s' => Same s s' ∧ L - min v.na v.nb ≤ r.2.2) := by
  intro f
  induction f with
  | zero => intro v mg L s _ _ _ _ _ _ _; unfold hiOuter; exact wlp_error
  | succ f ih =>
    intro v mg L s hL hmg ha hb hlo hup hf
    unfold hiOuter
    refine wlp_bind (((keeps_hiSimple _ _ _ _ _ _).wlp _).and ((res_hiSimple _ _ _ _ _ _).wlp _) |>.mono ?_)
    intro q s1 ⟨e1, hq⟩
    obtain ⟨ex, v'⟩ := q
    simp only at hq
    match ex with
    | some e => exact wlp_pure ⟨e1, by simp only; omega⟩
    | none =>
      simp only
      refine wlp_bind ((wlp_hiGallop t ba _ v' mg s1 (by omega) (by omega)).mono ?_)
      intro q s2 ⟨e2, h1, h2, h3⟩
      obtain ⟨ex, v2, mg2⟩ := q
      simp only at h1 h2 h3
      match ex, h2, h3 with
      | some e, h2, _ =>
        have := h2 (by simp)
        exact wlp_pure ⟨e1.trans e2, by simp only; omega⟩
      | none, _, h3 =>
        have h3 := h3 rfl
        unfold Round at h3
        simp only
        refine wlp_bind (wlp_bump (by omega) (fun s3 e3 => ?_))
        have key := ih v2 ((if mg2 < 0 then 0 else mg2) + 2) (L - min v'.na v'.nb + min v2.na v2.nb) s3
          (by omega) (by split <;> omega) (by omega) (by omega) (by omega) (by split <;> omega) (by omega)
        refine key.mono ?_
        intro r s4 ⟨e4, h4⟩
        exact ⟨((e1.trans e2).trans e3).trans e4, by omega⟩

end Verif.Gfx
