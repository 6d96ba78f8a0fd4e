import Verif.Lemmas.CPySortTop

/-!
# What holds of the oracle's state and the error indicator throughout a sort

`R` relates merge states. If it is a preorder, does not look at anything but the oracle's state and the error
indicator, and callbacks respect it, then every function of the sort respects it.
-/

namespace Verif.CPySort

variable {σ ε κ ν α β : Type}

/-- A preorder on the oracle's state and the error indicator that callbacks respect. -/
structure Stable (h : Host σ ε) (R : St σ ε → St σ ε → Prop) : Prop where
  same : ∀ s s' : St σ ε, s'.env = s.env → s'.err = s.err → R s s'
  trans : ∀ a b c : St σ ε, R a b → R b c → R a c
  ltOk : ∀ (s : St σ ε) x y b e, h.lt s.env x y = (.ok b, e) → R s { s with env := e }
  ltErr : ∀ (s : St σ ε) x y z e, h.lt s.env x y = (.error z, e) → R s { s with env := e, err := some z }
  tooBig : ∀ s : St σ ε, R s { s with err := some .memoryError }
  mallocOk : ∀ (s : St σ ε) n e, h.malloc s.env n = (true, e) → R s { s with env := e }
  mallocErr : ∀ (s : St σ ε) n e, h.malloc s.env n = (false, e) → R s { s with env := e, err := some .memoryError }

/-- Every run of `m` respects `R`. -/
def Keeps (R : St σ ε → St σ ε → Prop) (m : M σ ε α) : Prop := ∀ s a s', m s = .ok (a, s') → R s s'

variable {R : St σ ε → St σ ε → Prop} {h : Host σ ε}

theorem keeps_pure (hf : Stable h R) (a : α) : Keeps R (pure a : M σ ε α) := by
  intro s b s' e
  cases e
  exact hf.same _ _ rfl rfl

theorem keeps_bind (hf : Stable h R) {m : M σ ε α} {f : α → M σ ε β} (hm : Keeps R m) (hk : ∀ a, Keeps R (f a)) : Keeps R (m >>= f) := by
  intro s b s' e
  simp only [bind, StateT.bind, Except.bind] at e
  split at e
  · cases e
  · rename_i v hv
    exact hf.trans _ _ _ (hm s v.1 v.2 hv) (hk v.1 v.2 b s' e)

theorem keeps_error (_hf : Stable h R) (f : Fault) : Keeps R (fun _ => .error f : M σ ε α) := by
  intro s a s' e
  cases e

theorem keeps_get (hf : Stable h R) : Keeps R (get : M σ ε (St σ ε)) := by
  intro s a s' e
  cases e
  exact hf.same _ _ rfl rfl

theorem keeps_modify (hf : Stable h R) (f : St σ ε → St σ ε) (h1 : ∀ s, (f s).env = s.env) (h2 : ∀ s, (f s).err = s.err) :
    Keeps R (modify f : M σ ε Unit) := by
  intro s a s' e
  cases e
  exact hf.same _ _ (h1 _) (h2 _)

theorem keeps_check (hf : Stable h R) (b : Bool) (f : Fault) : Keeps R (check b f : M σ ε Unit) := by
  intro s a s' e
  unfold check at e
  split at e <;> cases e
  exact hf.same _ _ rfl rfl

theorem keeps_rd (hf : Stable h R) (a : List ε) (i : Int) : Keeps R (rd a i : M σ ε ε) := by
  intro s b s' e
  unfold rd at e
  split at e
  · cases e
  · split at e <;> cases e
    exact hf.same _ _ rfl rfl

theorem keeps_rdm (hf : Stable h R) (i : Int) : Keeps R (rdm i : M σ ε ε) := by
  intro s b s' e
  exact keeps_rd hf s.mem i s b s' e

theorem keeps_wr (hf : Stable h R) (i : Int) (x : ε) : Keeps R (wr i x : M σ ε Unit) := by
  intro s b s' e
  unfold wr at e
  split at e <;> cases e
  exact hf.same _ _ rfl rfl

theorem keeps_move (hf : Stable h R) (d i n : Int) : Keeps R (move d i n : M σ ε Unit) := by
  intro s b s' e
  unfold move at e
  split at e <;> cases e
  exact hf.same _ _ rfl rfl

theorem keeps_store (hf : Stable h R) (t : List ε) (d i n : Int) : Keeps R (store t d i n : M σ ε Unit) := by
  intro s b s' e
  unfold store at e
  split at e <;> cases e
  exact hf.same _ _ rfl rfl

theorem keeps_load (hf : Stable h R) (i n : Int) : Keeps R (load i n : M σ ε (List ε)) := by
  intro s b s' e
  unfold load at e
  split at e <;> cases e
  exact hf.same _ _ rfl rfl

theorem keeps_islt (hf : Stable h R) (x y : ε) : Keeps R (islt h x y) := by
  intro s b s' e
  unfold islt at e
  split at e
  · rename_i hl
    cases e
    exact hf.ltOk _ _ _ _ _ hl
  · rename_i hl
    cases e
    exact hf.ltErr _ _ _ _ _ hl

theorem keeps_getmem (hf : Stable h R) (n : Int) : Keeps R (getmem h n) := by
  intro s b s' e
  unfold getmem at e
  split at e
  · cases e; exact hf.same _ _ rfl rfl
  · generalize ssizeMax / 8 / (if h.keyed then 2 else 1) = lim at e
    split at e
    · cases e; exact hf.tooBig _
    · split at e
      · rename_i hl
        cases e
        exact hf.trans _ _ _ (hf.mallocOk _ _ _ hl) (hf.same _ _ rfl rfl)
      · rename_i hl
        cases e
        exact hf.mallocErr _ _ _ hl

/-- Follow the structure of the code. -/
syntax "keeps" : tactic
syntax "keeps" "[" term,+ "]" : tactic
macro_rules
  | `(tactic| keeps) => `(tactic| keeps [keeps_get (by assumption)])
  | `(tactic| keeps [$[$ts],*]) => `(tactic|
      repeat' first
        | exact keeps_pure (by assumption) _
        | exact keeps_error (by assumption) _
        | exact keeps_get (by assumption)
        | exact keeps_check (by assumption) _ _
        | exact keeps_rd (by assumption) _ _
        | exact keeps_rdm (by assumption) _
        | exact keeps_wr (by assumption) _ _
        | exact keeps_move (by assumption) _ _ _
        | exact keeps_store (by assumption) _ _ _ _
        | exact keeps_load (by assumption) _ _
        | exact keeps_islt (by assumption) _ _
        | exact keeps_modify (by assumption) _ (fun _ => rfl) (fun _ => rfl)
        | (first $[| with_reducible apply $ts]*)
        | with_reducible apply keeps_bind (by assumption)
        | with_reducible intro _
        | dsimp only
        | split)

theorem keeps_isnlt (hf : Stable h R) (x y : ε) : Keeps R (isnlt h x y) := by
  unfold isnlt
  keeps

theorem keeps_reverseLoop (hf : Stable h R) : ∀ f lo hi, Keeps R (reverseLoop f lo hi : M σ ε Unit) := by
  intro f
  induction f with
  | zero => intro lo hi; unfold reverseLoop; keeps
  | succ f ih => intro lo hi; unfold reverseLoop; keeps [ih]

theorem keeps_reverseSlice (hf : Stable h R) (lo n : Int) : Keeps R (reverseSlice lo n : M σ ε Unit) := keeps_reverseLoop hf _ _ _

theorem keeps_scan (hf : Stable h R) (probe : Int → M σ ε (Option Bool)) (hp : ∀ i, Keeps R (probe i)) (m : Int) :
    ∀ f l o, Keeps R (scan probe m f l o) := by
  intro f
  induction f with
  | zero => intro l o; unfold scan; keeps
  | succ f ih => intro l o; unfold scan; keeps [ih, hp]

theorem keeps_bisect (hf : Stable h R) (probe : Int → M σ ε (Option Bool)) (hp : ∀ i, Keeps R (probe i)) :
    ∀ f l o, Keeps R (bisect probe f l o) := by
  intro f
  induction f with
  | zero => intro l o; unfold bisect; keeps
  | succ f ih => intro l o; unfold bisect; keeps [ih, hp]

theorem keeps_gallopEnd (hf : Stable h R) (probe : Int → M σ ε (Option Bool)) (hp : ∀ i, Keeps R (probe i)) (n l o : Int) :
    Keeps R (gallopEnd probe n l o) := by
  unfold gallopEnd
  keeps [keeps_bisect hf, hp]

theorem keeps_gallopRight (hf : Stable h R) (key : ε) (a : List ε) (b n i : Int) : Keeps R (gallopRight h key a b n i) := by
  unfold gallopRight
  keeps [keeps_scan hf, keeps_gallopEnd hf, keeps_isnlt hf]

theorem keeps_gallopLeft (hf : Stable h R) (key : ε) (a : List ε) (b n i : Int) : Keeps R (gallopLeft h key a b n i) := by
  unfold gallopLeft
  keeps [keeps_scan hf, keeps_gallopEnd hf, keeps_isnlt hf]

theorem keeps_ascend (hf : Stable h R) (lo nrem : Int) : ∀ f n, Keeps R (ascend h lo nrem f n) := by
  intro f
  induction f with
  | zero => intro n; unfold ascend; keeps
  | succ f ih => intro n; unfold ascend; keeps [ih]

theorem keeps_reverseLastNeq (hf : Stable h R) (lo n q : Int) : Keeps R (reverseLastNeq lo n q : M σ ε Unit) := by
  unfold reverseLastNeq
  keeps [keeps_reverseSlice hf]

theorem keeps_descend (hf : Stable h R) (lo nrem : Int) : ∀ f n q, Keeps R (descend h lo nrem f n q) := by
  intro f
  induction f with
  | zero => intro n q; unfold descend; keeps
  | succ f ih => intro n q; unfold descend; keeps [ih, keeps_reverseLastNeq hf]

theorem keeps_countDescending (hf : Stable h R) (lo nrem n : Int) : Keeps R (countDescending h lo nrem n) := by
  unfold countDescending
  keeps [keeps_descend hf, keeps_reverseLastNeq hf, keeps_reverseSlice hf, keeps_ascend hf]

theorem keeps_countRun (hf : Stable h R) (lo nrem : Int) : Keeps R (countRun h lo nrem) := by
  unfold countRun
  keeps [keeps_ascend hf, keeps_reverseSlice hf, keeps_countDescending hf]

theorem keeps_binLoop (hf : Stable h R) (lo : Int) (p : ε) : ∀ f l r, Keeps R (binLoop h lo p f l r) := by
  intro f
  induction f with
  | zero => intro l r; unfold binLoop; keeps
  | succ f ih => intro l r; unfold binLoop; keeps [ih]

theorem keeps_slide (hf : Stable h R) (lo l : Int) : ∀ f m, Keeps R (slide lo l f m : M σ ε Unit) := by
  intro f
  induction f with
  | zero => intro m; unfold slide; keeps
  | succ f ih => intro m; unfold slide; keeps [ih]

theorem keeps_binaryLoop (hf : Stable h R) (lo n : Int) : ∀ f k, Keeps R (binaryLoop h lo n f k) := by
  intro f
  induction f with
  | zero => intro k; unfold binaryLoop; keeps
  | succ f ih => intro k; unfold binaryLoop; keeps [ih, keeps_binLoop hf, keeps_slide hf]

theorem keeps_binarysort (hf : Stable h R) (lo n k : Int) : Keeps R (binarysort h lo n k) := by
  unfold binarysort
  keeps [keeps_binaryLoop hf]

theorem keeps_loSimple (hf : Stable h R) (t : List ε) (mg : Int) : ∀ f v a b, Keeps R (loSimple h t mg f v a b) := by
  intro f
  induction f with
  | zero => intro v a b; unfold loSimple; keeps
  | succ f ih => intro v a b; unfold loSimple; keeps [ih]

theorem keeps_loGallopB (hf : Stable h R) (t : List ε) (v : Vars) : Keeps R (loGallopB h t v) := by
  unfold loGallopB
  keeps [keeps_gallopLeft hf]

theorem keeps_loGallop (hf : Stable h R) (t : List ε) : ∀ f v mg, Keeps R (loGallop h t f v mg) := by
  intro f
  induction f with
  | zero => intro v mg; unfold loGallop; keeps
  | succ f ih => intro v mg; unfold loGallop; keeps [ih, keeps_gallopRight hf, keeps_loGallopB hf]

theorem keeps_loOuter (hf : Stable h R) (t : List ε) : ∀ f v mg, Keeps R (loOuter h t f v mg) := by
  intro f
  induction f with
  | zero => intro v mg; unfold loOuter; keeps
  | succ f ih => intro v mg; unfold loOuter; keeps [ih, keeps_loSimple hf, keeps_loGallop hf]

theorem keeps_loExit (hf : Stable h R) (t : List ε) (e : Exit) (v : Vars) : Keeps R (loExit t e v : M σ ε (Option Unit)) := by
  unfold loExit
  keeps

theorem keeps_mergeLo (hf : Stable h R) (a b c d : Int) : Keeps R (mergeLo h a b c d) := by
  unfold mergeLo
  keeps [keeps_getmem hf, keeps_loOuter hf, keeps_loExit hf]

theorem keeps_hiSimple (hf : Stable h R) (t : List ε) (mg : Int) : ∀ f v a b, Keeps R (hiSimple h t mg f v a b) := by
  intro f
  induction f with
  | zero => intro v a b; unfold hiSimple; keeps
  | succ f ih => intro v a b; unfold hiSimple; keeps [ih]

theorem keeps_hiGallopB (hf : Stable h R) (t : List ε) (v : Vars) : Keeps R (hiGallopB h t v) := by
  unfold hiGallopB
  keeps [keeps_gallopLeft hf]

theorem keeps_hiGallop (hf : Stable h R) (t : List ε) (b : Int) : ∀ f v mg, Keeps R (hiGallop h t b f v mg) := by
  intro f
  induction f with
  | zero => intro v mg; unfold hiGallop; keeps
  | succ f ih => intro v mg; unfold hiGallop; keeps [ih, keeps_gallopRight hf, keeps_hiGallopB hf]

theorem keeps_hiOuter (hf : Stable h R) (t : List ε) (b : Int) : ∀ f v mg, Keeps R (hiOuter h t b f v mg) := by
  intro f
  induction f with
  | zero => intro v mg; unfold hiOuter; keeps
  | succ f ih => intro v mg; unfold hiOuter; keeps [ih, keeps_hiSimple hf, keeps_hiGallop hf]

theorem keeps_hiExit (hf : Stable h R) (t : List ε) (e : Exit) (v : Vars) : Keeps R (hiExit t e v : M σ ε (Option Unit)) := by
  unfold hiExit
  keeps

theorem keeps_mergeHi (hf : Stable h R) (a b c d : Int) : Keeps R (mergeHi h a b c d) := by
  unfold mergeHi
  keeps [keeps_getmem hf, keeps_hiOuter hf, keeps_hiExit hf]

theorem keeps_mergeRuns (hf : Stable h R) (a b c d : Int) : Keeps R (mergeRuns h a b c d) := by
  unfold mergeRuns
  keeps [keeps_gallopRight hf, keeps_gallopLeft hf, keeps_mergeLo hf, keeps_mergeHi hf]

theorem keeps_mergeAt (hf : Stable h R) (t : Bool) : Keeps R (mergeAt h t) := by
  unfold mergeAt
  keeps [keeps_mergeRuns hf]

theorem keeps_powerLoop (hf : Stable h R) (n : Int) : ∀ f a b r, Keeps R (powerLoop n f a b r : M σ ε Nat) := by
  intro f
  induction f with
  | zero => intro a b r; unfold powerLoop; keeps
  | succ f ih => intro a b r; unfold powerLoop; keeps [ih]

theorem keeps_powerloop (hf : Stable h R) (a b c d : Int) : Keeps R (powerloop a b c d : M σ ε Nat) := by
  unfold powerloop
  keeps [keeps_powerLoop hf]

theorem keeps_mergeWhile (hf : Stable h R) (p : Nat) : ∀ f, Keeps R (mergeWhile h p f) := by
  intro f
  induction f with
  | zero => unfold mergeWhile; keeps
  | succ f ih => unfold mergeWhile; keeps [ih, keeps_mergeAt hf]

theorem keeps_foundNewRun (hf : Stable h R) (a b : Int) : Keeps R (foundNewRun h a b) := by
  unfold foundNewRun
  keeps [keeps_powerloop hf, keeps_mergeWhile hf]

theorem keeps_forceCollapse (hf : Stable h R) : ∀ f, Keeps R (forceCollapse h f) := by
  intro f
  induction f with
  | zero => unfold forceCollapse; keeps
  | succ f ih => unfold forceCollapse; keeps [ih, keeps_mergeAt hf]

theorem keeps_nextRun (hf : Stable h R) (a b c d : Int) : Keeps R (nextRun h a b c d) := by
  unfold nextRun
  keeps [keeps_countRun hf, keeps_binarysort hf, keeps_foundNewRun hf]

theorem keeps_runLoop (hf : Stable h R) (a b : Int) : ∀ f lo n, Keeps R (runLoop h a b f lo n) := by
  intro f
  induction f with
  | zero => intro lo n; unfold runLoop; keeps
  | succ f ih => intro lo n; unfold runLoop; keeps [ih, keeps_nextRun hf]

theorem keeps_listsort (hf : Stable h R) (n : Int) (rev : Bool) : Keeps R (listsort h n rev) := by
  unfold listsort
  keeps [keeps_runLoop hf, keeps_forceCollapse hf, keeps_reverseSlice hf]


/-- The whole sort, after the reversal at the end. -/
theorem sortSlots_stable (hf : Stable h R) (env env' : σ) (O out : List ε) (rev ok : Bool) (err : Option Exc)
    (hr : sortSlots h env O rev = .ok (ok, out, env', err)) :
    ∃ s s' : St σ ε, R s s' ∧ s.env = env ∧ s.err = none ∧ s'.env = env' ∧ s'.err = err := by
  unfold sortSlots at hr
  simp only [bind, Except.bind] at hr
  split at hr
  · cases hr
  · rename_i v hv
    split at hr
    · cases hr
    · rename_i w hw
      simp only [pure, Except.pure, Except.ok.injEq, Prod.mk.injEq] at hr
      obtain ⟨_, _, he, he'⟩ := hr
      have h1 := keeps_listsort hf _ _ _ _ _ hv
      have h2 : R v.2 w.2 := by
        refine (?_ : Keeps R (if (rev && decide (1 < O.length)) = true then reverseSlice 0 O.length else pure () : M σ ε Unit)) _ _ _ hw
        keeps [keeps_reverseSlice hf]
      exact ⟨_, _, hf.trans _ _ _ h1 h2, rfl, rfl, he, he'⟩

/-! ## A relation that every callback respects -/

/-- Every callback, raising or not, moves the oracle's state along `Q`. -/
structure CallMoves (c : Caller σ κ ν) (Q : σ → σ → Prop) : Prop where
  refl : ∀ s, Q s s
  trans : ∀ a b c, Q a b → Q b c → Q a c
  key : ∀ s x, Q s (c.key s x).2
  lt : ∀ s x y, Q s (c.lt s x y).2
  malloc : ∀ s n, Q s (c.malloc s n).2

theorem CallMoves.stable {c : Caller σ κ ν} {Q : σ → σ → Prop} (hq : CallMoves c Q) :
    Stable (keyedHost c) (fun s s' => Q s.env s'.env) where
  same s s' h _ := by rw [h]; exact hq.refl _
  trans a b c := hq.trans _ _ _
  ltOk s x y b e h := by have := hq.lt s.env x.1 y.1; rw [show c.lt s.env x.1 y.1 = _ from h] at this; exact this
  ltErr s x y z e h := by have := hq.lt s.env x.1 y.1; rw [show c.lt s.env x.1 y.1 = _ from h] at this; exact this
  tooBig s := hq.refl _
  mallocOk s n e h := by have := hq.malloc s.env n; rw [show c.malloc s.env n = _ from h] at this; exact this
  mallocErr s n e h := by have := hq.malloc s.env n; rw [show c.malloc s.env n = _ from h] at this; exact this

theorem keysOf_moves {c : Caller σ κ ν} {Q : σ → σ → Prop} (hq : CallMoves c Q) : ∀ (l : List ν) (env : σ),
    Q env (keysOf c env l).2 := by
  intro l
  induction l with
  | nil => intro env; exact hq.refl _
  | cons x xs ih =>
    intro env
    have h1 := hq.key env x
    simp only [keysOf]
    split
    · rename_i h; rw [h] at h1; exact h1
    · rename_i k e h
      rw [h] at h1
      have h2 := ih e
      split <;> rename_i h' <;> rw [h'] at h2 <;> exact hq.trans _ _ _ h1 h2

theorem sortKeyed_moves {c : Caller σ κ ν} {Q : σ → σ → Prop} (hq : CallMoves c Q) (env env' : σ) (l out : List ν)
    (rev ok : Bool) (err : Option Exc) (hr : sortKeyed c env l rev = .ok (ok, out, env', err)) : Q env env' := by
  unfold sortKeyed at hr
  generalize hgot : (if l.length < 256 / 2 then (true, env) else c.malloc env l.length) = got at hr
  obtain ⟨got, env1⟩ := got
  have h1 : Q env env1 := by
    split at hgot
    · cases hgot; exact hq.refl _
    · have := hq.malloc env l.length; rw [hgot] at this; exact this
  cases got with
  | false => simp at hr; rw [← hr.2.2.1]; exact h1
  | true =>
    simp only [Bool.not_true, Bool.false_eq_true, if_false] at hr
    have h2 := keysOf_moves hq l env1
    split at hr
    · rename_i hk
      rw [hk] at h2
      simp only [Except.ok.injEq, Prod.mk.injEq] at hr
      rw [← hr.2.2.1]
      exact hq.trans _ _ _ h1 h2
    · rename_i ks env2 hk
      rw [hk] at h2
      simp only [bind, Except.bind] at hr
      split at hr
      · cases hr
      · rename_i v hv
        obtain ⟨ok', sl, e', er⟩ := v
        cases hr
        obtain ⟨s, s', h3, e1, _, e2, _⟩ := sortSlots_stable hq.stable _ _ _ _ _ _ _ hv
        rw [e1, e2] at h3
        exact hq.trans _ _ _ h1 (hq.trans _ _ _ h2 h3)

theorem CallMoves.stablePlain {c : Caller σ κ κ} {Q : σ → σ → Prop} (hq : CallMoves c Q) :
    Stable (plainHost c) (fun s s' => Q s.env s'.env) where
  same s s' h _ := by rw [h]; exact hq.refl _
  trans a b c := hq.trans _ _ _
  ltOk s x y b e h := by have := hq.lt s.env x y; rw [show c.lt s.env x y = _ from h] at this; exact this
  ltErr s x y z e h := by have := hq.lt s.env x y; rw [show c.lt s.env x y = _ from h] at this; exact this
  tooBig s := hq.refl _
  mallocOk s n e h := by have := hq.malloc s.env n; rw [show c.malloc s.env n = _ from h] at this; exact this
  mallocErr s n e h := by have := hq.malloc s.env n; rw [show c.malloc s.env n = _ from h] at this; exact this

theorem sortPlain_moves {c : Caller σ κ κ} {Q : σ → σ → Prop} (hq : CallMoves c Q) (env env' : σ) (l out : List κ)
    (rev ok : Bool) (err : Option Exc) (hr : sortPlain c env l rev = .ok (ok, out, env', err)) : Q env env' := by
  obtain ⟨s, s', h3, e1, _, e2, _⟩ := sortSlots_stable hq.stablePlain _ _ _ _ _ _ _ hr
  rw [e1, e2] at h3
  exact h3

/-- With at least one element, the state after the first call of the key function comes before the final one. -/
theorem sortKeyed_after_key {c : Caller σ κ ν} {Q : σ → σ → Prop} (hq : CallMoves c Q) (hm : ∀ s n, (c.malloc s n).2 = s)
    (env env' : σ) (x : ν) (l out : List ν) (rev ok : Bool) (err : Option Exc)
    (hmem : ∀ s n, (c.malloc s n).1 = true)
    (hr : sortKeyed c env (x :: l) rev = .ok (ok, out, env', err)) : Q (c.key env x).2 env' := by
  unfold sortKeyed at hr
  have hgot : (if (x :: l).length < 256 / 2 then (true, env) else c.malloc env (x :: l).length) = (true, env) := by
    split
    · rfl
    · exact Prod.ext (hmem _ _) (hm _ _)
  rw [hgot] at hr
  simp only [Bool.not_true, Bool.false_eq_true, if_false, keysOf] at hr
  cases hk : c.key env x with
  | mk r e1 =>
    rw [hk] at hr
    cases r with
    | error z => cases hr; exact hq.refl _
    | ok k =>
      have h2 := keysOf_moves hq l e1
      simp only at hr
      cases hks : keysOf c e1 l with
      | mk r2 e2 =>
        rw [hks] at hr h2
        cases r2 with
        | error z => cases hr; exact h2
        | ok ks =>
          simp only [bind, Except.bind] at hr
          split at hr
          · cases hr
          · rename_i v hv
            obtain ⟨ok', sl, e', er⟩ := v
            cases hr
            obtain ⟨s, s', h3, q1, _, q2, _⟩ := sortSlots_stable hq.stable _ _ _ _ _ _ _ hv
            rw [q1, q2] at h3
            exact hq.trans _ _ _ h2 h3

end Verif.CPySort
