import Verif.Lemmas.Import

/-!
# C67: importing the package
-/

namespace Verif.Props

open Verif Verif.Spec Verif.Import

/-- C67, all or nothing: whatever was imported before and whatever fails at whichever point, an import that does not
raise (or end the process) binds every documented name to its class and no other name. -/
theorem C67_all_or_raise (cfg : Cfg) (es : List (Pkg × ImportEnv)) (p : Proc) (h : after cfg Proc.fresh es = some p)
    (g : Pkg) (env : ImportEnv) (b : List (Cls × Cls)) (hb : (importPkg cfg env p g).2 = .names b) : RightNames g b := by
  have hi := after_inv es inv_fresh h
  unfold importPkg at hb
  split at hb
  · cases hb
  · cases hb
  · next p1 names he =>
    obtain ⟨h1, h2⟩ := importExt_inv hi he
    obtain ⟨cs, rfl⟩ := h1 names (h2 names rfl)
    rw [take_diag] at hb
    split at hb
    · cases hb
    · next b' ht =>
      cases hb
      split at ht
      · cases ht; exact right_wanted g
      · cases ht

/-- The two tables of `initBitonicSort` can be had, or are not needed. -/
def C67_Marks (cfg : Cfg) (env : ImportEnv) (p : Proc) : Prop :=
  (cfg.avx2 = true → p.marks2 = false → env.marks2 = true) ∧ (cfg.avx512 = true → p.marks512 = false → env.marks512 = true)

private theorem marks_iff (cfg : Cfg) (env : ImportEnv) (p : Proc) :
    (∃ q, initMarks cfg env p = some q) ↔ C67_Marks cfg env p := by
  unfold initMarks C67_Marks
  cases cfg.avx2 <;> cases cfg.avx512 <;> cases p.marks2 <;> cases p.marks512 <;> cases env.marks2 <;> cases env.marks512 <;> simp

private theorem table_offers (g : Pkg) (c : Cls) (h : c ∈ wanted g) : c ∈ table := by
  cases g <;> cases c <;> first | decide | exact absurd h (by decide)

private theorem import_first (cfg : Cfg) (env : ImportEnv) (p q : Proc) (g : Pkg) (hs : p.sys = none)
    (hm : initMarks cfg env p = some q) (hp : env.parent = true) :
    importPkg cfg env p g =
      if errAfter cfg.py env table none = none then
        (some { q with sys := some ((table.filter (fine env)).map fun c => (c, c)), leaked := q.leaked ++ table.filter (lost env) },
          if ∀ c ∈ wanted g, Luck.Fine (env.inner c) then .names ((wanted g).map fun c => (c, c)) else .importError)
      else (some { q with leaked := q.leaked ++ table.filter (lost env) }, .raises .systemError) := by
  unfold importPkg importExt
  rw [hs, hm]
  simp only [hp, Bool.not_true, Bool.false_eq_true, if_false, addAll_eq, List.nil_append]
  cases he : errAfter cfg.py env table none with
  | some e => simp
  | none =>
    simp only [if_true, take_diag]
    have : (∀ c ∈ wanted g, c ∈ table.filter (fine env)) ↔ ∀ c ∈ wanted g, Luck.Fine (env.inner c) := by
      refine forall₂_congr fun c hc => ?_
      rw [List.mem_filter]
      unfold fine
      simp [table_offers g c hc]
    by_cases hf : ∀ c ∈ wanted g, Luck.Fine (env.inner c)
    · rw [if_pos (this.2 hf), if_pos hf]
    · rw [if_neg (fun h => hf (this.1 h)), if_neg hf]

/-- C67, exactly: the first import that gets as far as the extension module succeeds if and only if the tables of the
sort can be had, the extension module can be made, none of its fourteen parts fails with the exception still set at
the end, and the parts the imported module needs do not fail. The exception is forgotten only up to 3.11. -/
theorem C67_exact (cfg : Cfg) (env : ImportEnv) (p : Proc) (g : Pkg) (hs : p.sys = none) :
    (∃ b, (importPkg cfg env p g).2 = .names b) ↔
      C67_Marks cfg env p ∧ env.parent = true ∧ ¬ Noticed (decide (cfg.py = .le311)) env table ∧
        ∀ c ∈ offers g, Luck.Fine (env.inner c) := by
  rw [← marks_iff]
  by_cases hm : ∃ q, initMarks cfg env p = some q
  · simp only [hm, true_and]
    obtain ⟨q, hq⟩ := hm
    by_cases hp : env.parent = true
    · rw [import_first cfg env p q g hs hq hp]
      have he := errAfter_none cfg.py env table none
      simp only [true_or, true_and] at he
      change _ ↔ ¬ Noticed (decide (cfg.py = .le311)) env table at he
      have ho : (∀ c ∈ wanted g, Luck.Fine (env.inner c)) ↔ ∀ c ∈ offers g, Luck.Fine (env.inner c) :=
        forall_congr' fun c => by rw [wanted_offers]
      simp only [hp, true_and, ← ho]
      by_cases h1 : Noticed (decide (cfg.py = .le311)) env table
      · rw [if_neg (fun h => he.1 h h1)]
        constructor
        · rintro ⟨b, h⟩; cases h
        · rintro ⟨h, _⟩; exact absurd h1 h
      · by_cases h2 : ∀ c ∈ wanted g, Luck.Fine (env.inner c)
        · rw [if_pos (he.2 h1), if_pos h2]
          exact ⟨fun _ => ⟨h1, h2⟩, fun _ => ⟨_, rfl⟩⟩
        · rw [if_pos (he.2 h1), if_neg h2]
          constructor
          · rintro ⟨b, h⟩; cases h
          · rintro ⟨_, h⟩; exact absurd h h2
    · simp only [hp, Bool.false_eq_true, false_and, iff_false]
      rintro ⟨b, h⟩
      unfold importPkg importExt at h
      simp [hs, hq, hp] at h
  · simp only [hm, false_and, iff_false]
    rintro ⟨b, h⟩
    have : initMarks cfg env p = none := by
      cases hi : initMarks cfg env p with
      | none => rfl
      | some q => exact absurd ⟨q, hi⟩ hm
    unfold importPkg importExt at h
    simp [hs, this] at h

/-- The module in `sys.modules` is complete, if there. -/
private def Whole (p : Proc) : Prop := ∀ names, p.sys = some names → names = table.map fun c => (c, c)

private theorem whole_step {cfg : Cfg} (hpy : cfg.py ≠ .le311) {env : ImportEnv} {p q : Proc} {g : Pkg} (hp : Whole p)
    (h : (importPkg cfg env p g).1 = some q) : Whole q := by
  cases hs : p.sys with
  | some names =>
    unfold importPkg importExt at h
    rw [hs] at h
    simp only at h
    split at h <;> cases h <;> exact hp
  | none =>
    cases hm : initMarks cfg env p with
    | none =>
      unfold importPkg importExt at h
      rw [hs, hm] at h
      cases h
    | some q1 =>
      obtain ⟨h1, _⟩ := initMarks_sys hm
      by_cases hpar : env.parent = true
      · rw [import_first cfg env p q1 g hs hm hpar] at h
        split at h
        · next he =>
          cases h
          intro names hn
          cases hn
          have hno := ((errAfter_none cfg.py env table none).1 he).2
          have hf : ∀ c ∈ table, fine env c = true := by
            intro c hc
            refine Classical.byContradiction fun hc' => hno ?_
            obtain ⟨pre, post, hpp⟩ := List.append_of_mem hc
            refine ⟨pre, c, post, hpp, fun hf => hc' (decide_eq_true hf), fun d _ hd => ?_⟩
            exact hpy (of_decide_eq_true hd.1)
          rw [List.filter_eq_self.2 hf]
        · cases h
          intro names hn
          dsimp only at hn
          rw [h1, hs] at hn
          cases hn
      · unfold importPkg importExt at h
        rw [hs, hm] at h
        simp only [hpar, Bool.not_false, if_true] at h
        cases h
        intro names hn
        rw [h1, hs] at hn
        cases hn

/-- C67 from 3.12 on: whatever failed before, as long as the process is still there, an import during which nothing
fails succeeds. -/
theorem C67_again_partial (cfg : Cfg) (hpy : cfg.py ≠ .le311) (es : List (Pkg × ImportEnv)) (p : Proc)
    (h : after cfg Proc.fresh es = some p) (g : Pkg) (env : ImportEnv) (hf : ImportEnv.Fine env) :
    ∃ b, (importPkg cfg env p g).2 = .names b ∧ RightNames g b := by
  have hw : Whole p := by
    have : ∀ (es : List (Pkg × ImportEnv)) (p q : Proc), Whole p → after cfg p es = some q → Whole q := by
      intro es
      induction es with
      | nil => intro p q hp h; cases h; exact hp
      | cons x es ih =>
        obtain ⟨g, env⟩ := x
        intro p q hp h
        rw [after] at h
        split at h
        · cases h
        · next p1 a he => exact ih p1 q (whole_step hpy hp (by rw [he])) h
    exact this es _ _ (fun n hn => by cases hn) h
  cases hs : p.sys with
  | none =>
    have hno : ¬ Noticed (decide (cfg.py = .le311)) env table := by
      rintro ⟨pre, c, post, _, h1, _⟩
      exact h1 (hf.2.2.2 c)
    obtain ⟨b, hb⟩ := (C67_exact cfg env p g hs).2 ⟨⟨fun _ _ => hf.1, fun _ _ => hf.2.1⟩, hf.2.2.1, hno, fun c _ => hf.2.2.2 c⟩
    exact ⟨b, hb, C67_all_or_raise cfg es p h g env b hb⟩
  | some names =>
    have hn := hw names hs
    refine ⟨(wanted g).map fun c => (c, c), ?_, right_wanted g⟩
    unfold importPkg importExt
    rw [hs]
    simp only
    rw [hn, take_diag, if_pos (table_offers g)]

/-- Luck for the examples: the module `c` cannot be made, and a collection runs while `d` is made. -/
def missing (c d : Cls) : ImportEnv := ⟨true, true, true, fun x => ⟨decide (x = d), decide (x ≠ c), true, true⟩⟩

/-- Nothing fails. -/
def lucky : ImportEnv := ⟨true, true, true, fun _ => ⟨false, true, true, true⟩⟩

example : ImportEnv.Fine lucky := ⟨rfl, rfl, rfl, fun _ => ⟨rfl, rfl, rfl⟩⟩
example : session ⟨.v312, false, true, true, true⟩ Proc.fresh [(.ints, missing .simd .asm), (.ints, lucky)] =
    [.raises .systemError, .names [(.intArrayList, .intArrayList), (.intArrayListIter, .intArrayListIter),
      (.bigIntArrayList, .bigIntArrayList), (.bigIntArrayListIter, .bigIntArrayListIter),
      (.intLinkedList, .intLinkedList), (.intLinkedListIter, .intLinkedListIter)]] := by decide +kernel

/-- C67 fails up to 3.11: if making the part for a class fails and a collection runs while a later part is made, the
exception is forgotten and the incomplete module stays. From then on every import of the module that offers the
class raises ImportError, whatever the machine grants. `g0` is the module whose import did this. -/
theorem C67_again_negation (cfg : Cfg) (hpy : cfg.py = .le311) (pre mid post : List Cls) (c d : Cls)
    (ht : table = pre ++ c :: mid ++ d :: post) (g0 : Pkg) :
    ∃ p, after cfg Proc.fresh [(g0, missing c d)] = some p ∧
      ∀ g, c ∈ offers g → ∀ env, importPkg cfg env p g = (some p, .importError) := by
  have hm : ∃ q, initMarks cfg (missing c d) Proc.fresh = some q := (marks_iff _ _ _).2 ⟨fun _ _ => rfl, fun _ _ => rfl⟩
  obtain ⟨q, hq⟩ := hm
  have hfirst := import_first cfg (missing c d) Proc.fresh q g0 rfl hq rfl
  have hcd : c ≠ d := by
    have hnd : (pre ++ c :: mid ++ d :: post).Nodup := ht ▸ (by decide)
    rintro rfl
    rw [List.append_assoc] at hnd
    have := (List.nodup_append.1 hnd).2.1
    rw [List.cons_append, List.nodup_cons] at this
    exact this.1 (by simp)
  have herr : errAfter cfg.py (missing c d) table none = none := by
    rw [errAfter_none]
    refine ⟨Or.inl rfl, ?_⟩
    rintro ⟨pre', x, post', hx, h1, h2⟩
    have hxc : x = c := by
      refine Classical.byContradiction fun hne => h1 ?_
      exact ⟨decide_eq_true hne, rfl, rfl⟩
    subst hxc
    have hnd : (pre' ++ x :: post').Nodup := hx ▸ (by decide)
    have hd : d ∈ post' := by
      have e : pre ++ x :: (mid ++ d :: post) = pre' ++ x :: post' := by rw [← hx, ht]; simp
      have hx1 : x ∉ pre := by
        have hnd1 : (pre ++ x :: (mid ++ d :: post)).Nodup := by rw [e]; exact hnd
        intro hm
        exact (List.nodup_append.1 hnd1).2.2 x hm x (by simp) rfl
      have hx2 : x ∉ pre' := fun hm => (List.nodup_append.1 hnd).2.2 x hm x (by simp) rfl
      have : mid ++ d :: post = post' := by
        clear hnd hx ht h2 h1 hfirst hq
        induction pre generalizing pre' with
        | nil =>
          cases pre' with
          | nil => simpa using e
          | cons a as => simp at e; exact absurd (by simp [e.1]) hx2
        | cons a as ih =>
          cases pre' with
          | nil => simp at e; exact absurd (by simp [e.1]) hx1
          | cons b bs =>
            simp at e
            exact ih bs (by simpa using e.2) (fun h => hx1 (by simp [h])) (fun h => hx2 (by simp [h]))
      rw [← this]; simp
    exact h2 d hd ⟨by rw [hpy]; rfl, by simp [missing]⟩
  rw [if_pos herr] at hfirst
  refine ⟨_, by rw [after, hfirst]; rfl, ?_⟩
  intro g hg env
  unfold importPkg importExt
  simp only [take_diag]
  rw [if_neg]
  intro hall
  have := hall c ((wanted_offers g c).2 hg)
  rw [List.mem_filter] at this
  have h3 : Luck.Fine ((missing c d).inner c) := of_decide_eq_true this.2
  have := h3.1
  simp [missing] at this

example : table = [.intArrayList, .intArrayListIter] ++ .bigIntArrayList :: [.bigIntArrayListIter] ++ .intLinkedList ::
    [.intLinkedListIter, .objectArrayList, .objectArrayListIter, .objectLinkedList, .objectLinkedListIter,
      .unsafeCls, .simd, .simdLowAVX512, .asm] := rfl

/-- C67 fails: when the memory for the tables of the sort is refused, the import ends the process instead of raising. -/
theorem C67_abort_negation (cfg : Cfg) (env : ImportEnv) (p : Proc) (g : Pkg) (hs : p.sys = none) (h : ¬ C67_Marks cfg env p) :
    importPkg cfg env p g = (none, .aborted) := by
  have : initMarks cfg env p = none := by
    cases hi : initMarks cfg env p with
    | none => rfl
    | some q => exact absurd ((marks_iff cfg env p).1 ⟨q, hi⟩) h
  unfold importPkg importExt
  rw [hs]
  simp only [this]

example : ¬ C67_Marks ⟨.ge313, false, true, true, true⟩ { lucky with marks2 := false } Proc.fresh := by
  intro h
  exact absurd (h.1 rfl rfl) (by decide)

/-- C67 fails: an import that raises does not give back everything. The parts that were made but could not be added
to the extension module stay, each time. -/
theorem C67_leak_negation (cfg : Cfg) (env : ImportEnv) (p q : Proc) (g : Pkg) (hs : p.sys = none)
    (hp : env.parent = true) (h : (importPkg cfg env p g).1 = some q) :
    q.leaked = p.leaked ++ table.filter (fun c => decide ((env.inner c).create = true ∧ (env.inner c).addClass = true ∧
      (env.inner c).addModule = false)) := by
  have hlost : lost env = fun c => decide ((env.inner c).create = true ∧ (env.inner c).addClass = true ∧
      (env.inner c).addModule = false) := by
    funext c
    unfold lost
    cases (env.inner c).create <;> cases (env.inner c).addClass <;> cases (env.inner c).addModule <;> rfl
  cases hm : initMarks cfg env p with
  | none =>
    unfold importPkg importExt at h
    rw [hs, hm] at h
    cases h
  | some q1 =>
    have h1 := (initMarks_sys hm).2
    rw [import_first cfg env p q1 g hs hm hp] at h
    rw [← hlost]
    split at h
    · cases h; rw [← h1]
    · cases h; rw [← h1]

example : (importPkg ⟨.v312, false, true, true, true⟩
    { lucky with inner := fun c => ⟨false, true, true, decide (c ≠ .asm)⟩ } Proc.fresh .ints) =
    (some ⟨true, false, none, [.asm]⟩, .raises .systemError) := by decide +kernel

end Verif.Props
