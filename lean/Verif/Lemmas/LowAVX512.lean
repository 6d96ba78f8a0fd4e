import Verif.Lemmas.LowAVX512Rows
import Verif.Lemmas.SimdSet
import Verif.Spec.GuardLow
import Mathlib.Tactic.Ring

/-!
# Calls of the AVX-512 bindings
-/

namespace Verif.LowAVX512

open Spec.Low

/-! ## Dispatch -/

theorem increasing_pairwise {α : Type} : ∀ l : List (Ident × α), increasing l = true → l.Pairwise fun a b => a.1 < b.1
  | [], _ => .nil
  | [a], _ => List.pairwise_singleton _ _
  | a :: b :: t, h => by
    simp only [increasing, Bool.and_eq_true, Nat.blt_eq] at h
    have ih := increasing_pairwise (b :: t) h.2
    refine .cons (fun c hc => ?_) ih
    rcases List.mem_cons.1 hc with rfl | hc
    · exact h.1
    · exact Nat.lt_trans h.1 ((List.pairwise_cons.1 ih).1 c hc)

theorem lookup_mem {α : Type} {l : List (Ident × α)} (h : l.Pairwise fun a b => a.1 < b.1) {k : Ident} {v : α}
    (hm : (k, v) ∈ l) : l.lookup k = some v := by
  induction l with
  | nil => cases hm
  | cons a l ih =>
    obtain ⟨a1, a2⟩ := a
    rw [List.pairwise_cons] at h
    rcases List.mem_cons.1 hm with e | hm
    · cases e
      simp
    · have : a1 < k := h.1 _ hm
      rw [List.lookup_cons, show (k == a1) = false by rw [beq_eq_false_iff_ne]; exact Nat.ne_of_gt this]
      exact ih h.2 hm

theorem mem_of_lookup {α : Type} {l : List (Ident × α)} {k : Ident} {v : α} (h : l.lookup k = some v) : (k, v) ∈ l := by
  induction l with
  | nil => cases h
  | cons a l ih =>
    obtain ⟨a1, a2⟩ := a
    rw [List.lookup_cons] at h
    split at h
    · rename_i e
      cases h
      rw [beq_iff_eq.1 e]
      exact List.mem_cons_self
    · exact List.mem_cons_of_mem _ (ih h)

/-- The row of a stub. -/
theorem row {ms ws : List (Ident × Ident)} {fs : List (Ident × Impl)} {ss : List Stub} (h : rowsOk ms ws fs ss = true)
    {s : Stub} (hs : s ∈ ss) : ∃ w f, (s.method, w) ∈ ms ∧ (w, f) ∈ ws ∧ (f, implFor s) ∈ fs ∧ s.hints = hintsFor s := by
  induction ss generalizing ms ws fs with
  | nil => cases hs
  | cons s' ss ih =>
    rcases ms with _ | ⟨m, ms⟩ <;> rcases ws with _ | ⟨w, ws⟩ <;> rcases fs with _ | ⟨f, fs⟩ <;>
      first | cases h | skip
    · simp only [rowsOk, rowOk, Bool.and_eq_true, Nat.beq_eq, decide_eq_true_eq] at h
      obtain ⟨⟨⟨⟨⟨h1, h2⟩, h3⟩, h4⟩, h5⟩, h6⟩ := h
      rcases List.mem_cons.1 hs with rfl | hs
      · refine ⟨m.2, w.2, ?_, ?_, ?_, h5⟩
        · rw [← h1]; exact List.mem_cons_self
        · rw [h2]; exact List.mem_cons_self
        · rw [h3, ← h4]; exact List.mem_cons_self
      · obtain ⟨w', f', a, b, c, d⟩ := ih h6 hs
        exact ⟨w', f', List.mem_cons_of_mem _ a, List.mem_cons_of_mem _ b, List.mem_cons_of_mem _ c, d⟩

theorem row_method {ms ws : List (Ident × Ident)} {fs : List (Ident × Impl)} {ss : List Stub}
    (h : rowsOk ms ws fs ss = true) {k w : Ident} (hk : (k, w) ∈ ms) : ∃ s ∈ ss, s.method = k := by
  induction ss generalizing ms ws fs with
  | nil =>
    rcases ms with _ | ⟨m, ms⟩ <;> rcases ws with _ | ⟨w', ws⟩ <;> rcases fs with _ | ⟨f, fs⟩ <;>
      cases h
    cases hk
  | cons s' ss ih =>
    rcases ms with _ | ⟨m, ms⟩ <;> rcases ws with _ | ⟨w', ws⟩ <;> rcases fs with _ | ⟨f, fs⟩ <;>
      first | cases h | skip
    · simp only [rowsOk, rowOk, Bool.and_eq_true, Nat.beq_eq, decide_eq_true_eq] at h
      obtain ⟨⟨⟨⟨⟨h1, _⟩, _⟩, _⟩, _⟩, h6⟩ := h
      rcases List.mem_cons.1 hk with rfl | hk
      · exact ⟨s', List.mem_cons_self, h1.symm⟩
      · obtain ⟨s, hs, e⟩ := ih h6 hk
        exact ⟨s, List.mem_cons_of_mem _ hs, e⟩

/-- A call of a documented method runs the expected implementation. -/
theorem call_stub (py : PyVer) (f32 : List Byte → List Byte) (I : Intrinsics) (m : Mem) (args : List LArg) {s : Stub}
    (hs : s ∈ stubs) : call py f32 I s.method m args = some (exec py f32 I m args (implFor s)) := by
  obtain ⟨w, f, h1, h2, h3, _⟩ := row rows_ok hs
  unfold call
  rw [lookup_mem (increasing_pairwise _ methods_increasing) h1]
  simp only
  rw [lookup_mem (increasing_pairwise _ wrappers_increasing) h2]
  simp only
  rw [lookup_mem (increasing_pairwise _ impls_increasing) h3]
  rfl

/-! ## Conversions -/

theorem leNat_lt : ∀ bs : List Byte, Spec.leNat bs < 256 ^ bs.length
  | [] => by simp [Spec.leNat]
  | b :: bs => by
    have := leNat_lt bs
    simp only [Spec.leNat, List.length_cons, Nat.pow_succ]
    have := b.isLt
    omega

theorem laneBytes_leNat : ∀ (bs : List Byte) (k : Int),
    SimdSet.laneBytes bs.length ((Spec.leNat bs : Int) + 256 ^ bs.length * k) = bs
  | [], _ => rfl
  | b :: bs, k => by
    have ih := laneBytes_leNat bs k
    simp only [Spec.leNat, List.length_cons, SimdSet.laneBytes, Int.pow_succ]
    have hb := b.isLt
    have e : (((b.val + 256 * Spec.leNat bs : Nat) : Int) + 256 ^ bs.length * 256 * k) =
        b.val + 256 * ((Spec.leNat bs : Int) + 256 ^ bs.length * k) := by push_cast; ring
    rw [e]
    have e1 : ((b.val : Int) + 256 * ((Spec.leNat bs : Int) + 256 ^ bs.length * k)) % 256 = b.val := by omega
    have e2 : ((b.val : Int) + 256 * ((Spec.leNat bs : Int) + 256 ^ bs.length * k)) / 256 =
        (Spec.leNat bs : Int) + 256 ^ bs.length * k := by omega
    rw [e1, e2, ih]
    congr 1
    apply Fin.ext
    simp [Fin.ofNat]

theorem laneBytes_encodes {t : CTy} {v : Int} {bs : List Byte} (h : Encodes t v bs) :
    SimdSet.laneBytes t.size v = bs := by
  obtain ⟨h1, h2⟩ := h
  rw [← h1]
  split at h2
  · unfold Spec.leInt at h2
    split at h2
    · have := laneBytes_leNat bs 0
      rw [← h2]
      simpa using this
    · have := laneBytes_leNat bs (-1)
      rw [← h2]
      simpa [Int.sub_eq_add_neg] using this
  · have := laneBytes_leNat bs 0
    rw [← h2]
    simpa using this

theorem encodes_signed {t : CTy} {v : Int} {bs : List Byte} (ht : signed t = true) (h : Encodes t v bs) :
    -(256 ^ t.size : Int) ≤ 2 * v ∧ 2 * v < 256 ^ t.size := by
  obtain ⟨h1, h2⟩ := h
  rw [if_pos ht] at h2
  have := leNat_lt bs
  rw [h1] at this
  have hc : ((256 ^ t.size : Nat) : Int) = (256 : Int) ^ t.size := by simp
  unfold Spec.leInt at h2
  rw [h1] at h2
  rw [← hc] at h2 ⊢
  split at h2 <;> omega

theorem encodes_unsigned {t : CTy} {v : Int} {bs : List Byte} (ht : signed t = false) (h : Encodes t v bs) :
    0 ≤ v ∧ v < 256 ^ t.size := by
  obtain ⟨h1, h2⟩ := h
  rw [if_neg (by simp [ht])] at h2
  have := leNat_lt bs
  rw [h1] at this
  have hc : ((256 ^ t.size : Nat) : Int) = (256 : Int) ^ t.size := by simp
  rw [← hc]
  omega

theorem address_ok {m : Mem} {t : CTy} {a : LArg} {p : Nat} (w : Unsafe.asVoidPtr (toArg a) = .ok p) (h0 : 0 < p)
    (h2 : p % t.size = 0) (hc : m.covers p t.size = true) : address t m a = .ok p := by
  simp only [address, w, if_neg (Nat.ne_of_gt h0), h2, hc, ne_eq, not_true, if_false, if_true]

theorem at_covers {m : Mem} {t : CTy} {p : Nat} (h : At m t p) : m.covers p t.size = true := by
  obtain ⟨h0, h1, h2, b, hb, h3, h4⟩ := h
  clear h1
  simp only [Mem.covers, Bool.or_eq_true, List.any_eq_true, decide_eq_true_eq]
  exact Or.inr ⟨b, hb, h3, h4⟩

theorem at_word {m : Mem} {t : CTy} {p : Nat} (h : At m t p) : Unsafe.asVoidPtr (.int p) = .ok p :=
  Unsafe.word_asVoidPtr (Unsafe.word_nat h.2.1)

theorem address_at {m : Mem} {t : CTy} {p : Nat} (h : At m t p) : address t m (.obj (.int p)) = .ok p :=
  address_ok (at_word h) h.1 h.2.2.1 (at_covers h)

theorem convert_deref {py : PyVer} {f32 : List Byte → List Byte} {m : Mem} {d : Decl} {a : LArg} {p : Nat}
    (hd : d.conv = .deref) (h : address d.ty m a = .ok p) : convert py f32 m d a = .ok (bytesAt m p d.ty.size, none) := by
  simp only [convert, hd, h]
  rfl

theorem asSmall_min (bits : Nat) (hb : bits = 8 ∨ bits = 16) (py : PyVer) (hp : py ≠ .le311) :
    asSmall bits py (canon (-(2 ^ (bits - 1)))) = -(2 ^ (bits - 1)) := by
  have key : asSmall bits py (canon (-(2 ^ (bits - 1)))) =
      wrapS bits ((digits30 (-(2 ^ (bits - 1)) : Int).natAbs).headD 0 : Nat) := by
    cases py with
    | le311 => exact absurd rfl hp
    | v312 => rfl
    | ge313 => rfl
  rw [key]
  rcases hb with rfl | rfl
  · rw [digits30_small (by decide) (by decide)]; decide
  · rw [digits30_small (by decide) (by decide)]; decide

theorem convert_exact {py : PyVer} {f32 : List Byte → List Byte} {m : Mem} {t : CTy} {a : LArg} {v : List Byte}
    (h : Denotes true f32 m t a v) (he : Exact py t a) (k : Nat) :
    convert py f32 m ⟨t, convFor t, k⟩ a = .ok (v, none) := by
  cases h with
  | @boxed _ p ht h =>
    have e : convFor t = .deref := by cases t <;> first | rfl | cases ht
    exact convert_deref e (address_at h)
  | @integer _ n _ ht h =>
    have hb := laneBytes_encodes h
    obtain ⟨e1, e2, e3⟩ := he _ rfl
    cases t with
    | char =>
      have hr := encodes_signed rfl h
      have hf : FitsS 8 n := by simp [FitsS, CTy.size] at hr ⊢; omega
      have : asSmall 8 py (canon n) = n := by
        by_cases hp : py = .le311
        · subst hp; exact Props.C48_asSmall_311 8 (Or.inl rfl) n hf
        · rcases e2 rfl hp with h0 | h0
          · exact Props.C48_asSmall_312_partial 8 (Or.inl rfl) py hp n hf h0
          · subst h0; exact asSmall_min 8 (Or.inl rfl) py hp
      simp only [convert, convFor, toArg, fastSmall, intBytes, this, hb]
    | short =>
      have hr := encodes_signed rfl h
      have hf : FitsS 16 n := by simp [FitsS, CTy.size] at hr ⊢; omega
      have : asSmall 16 py (canon n) = n := by
        by_cases hp : py = .le311
        · subst hp; exact Props.C48_asSmall_311 16 (Or.inr rfl) n hf
        · rcases e3 rfl hp with h0 | h0
          · exact Props.C48_asSmall_312_partial 16 (Or.inr rfl) py hp n hf h0
          · subst h0; exact asSmall_min 16 (Or.inr rfl) py hp
      simp only [convert, convFor, toArg, fastSmall, intBytes, this, hb]
    | int =>
      have hr := encodes_signed rfl h
      have hf : FitsS 32 n := by simp [FitsS, CTy.size] at hr ⊢; omega
      have : Verif.asInt py (canon n) = (n, none) := by
        by_cases hp : py = .le311
        · subst hp; exact Props.C48_asInt_311_partial n (e1 rfl rfl)
        · rw [Props.C48_asInt_312 py hp, if_pos hf]
      simp only [convert, convFor, toArg, fastInt, intBytes, this, hb]
    | llong =>
      have hr := encodes_signed rfl h
      have hf : FitsS 64 n := by simp [FitsS, CTy.size] at hr ⊢; omega
      simp only [convert, convFor, toArg, asLong, if_pos hf, intBytes, hb]
    | uint =>
      have hr := encodes_unsigned rfl h
      have hf : 0 ≤ n ∧ n < 2 ^ 64 := by simp [CTy.size] at hr ⊢; omega
      simp only [convert, convFor, toArg, asUnsigned, Unsafe.asSizeT, if_pos hf, intBytes]
      rw [Int.toNat_of_nonneg hf.1, hb]
    | ullong =>
      have hr := encodes_unsigned rfl h
      have hf : 0 ≤ n ∧ n < 2 ^ 64 := by simp [CTy.size] at hr ⊢; omega
      simp only [convert, convFor, toArg, asUnsigned, Unsafe.asSizeT, if_pos hf, intBytes]
      rw [Int.toNat_of_nonneg hf.1, hb]
    | _ => exact absurd ht (by decide)
  | pointer hi => cases hi
  | @cell p _ h =>
    exact convert_deref rfl (address_at h)
  | double => rfl
  | float => rfl

/-- The variables after the declarations. -/
def envFor : List CTy → Nat → List (List Byte) → List (Nat × List Byte)
  | _ :: ts, k, v :: vs => (k, v) :: envFor ts (k + 1) vs
  | _, _, _ => []

theorem declare_exact {py : PyVer} {f32 : List Byte → List Byte} {m : Mem} {ts : List CTy} {as : List LArg}
    {vs : List (List Byte)} (h : DenoteAll true f32 m ts as vs) :
    ∀ pre : List LArg, (∀ x ∈ ts.zip as, Exact py x.1 x.2) →
      declare py f32 m (pre ++ as) (declsFor ts pre.length) = .ok (envFor ts pre.length vs, none) := by
  induction h with
  | nil => intro pre _; rfl
  | @cons t ts a as v vs h _ ih =>
    intro pre he
    have ih := ih (pre ++ [a]) (fun x hx => he x (by rw [List.zip_cons_cons]; exact List.mem_cons_of_mem _ hx))
    rw [List.append_assoc, List.length_append] at ih
    simp only [List.singleton_append, List.length_singleton] at ih
    simp only [declsFor, declare, envFor]
    rw [show (pre ++ a :: as)[pre.length]? = some a by simp]
    simp only
    rw [convert_exact h (he (t, a) (by rw [List.zip_cons_cons]; exact List.mem_cons_self))]
    simp only
    rw [ih]
    rfl

theorem lookup_env {f32 : List Byte → List Byte} {i : Bool} {m : Mem} {ts : List CTy} {as : List LArg}
    {vs : List (List Byte)} (h : DenoteAll i f32 m ts as vs) :
    ∀ (k : Nat) (env : List (Nat × List Byte)), (∀ j, k ≤ j → env.lookup j = none) →
      (slots ts k).map (fun j => ((env ++ envFor ts k vs).lookup j).getD []) = vs := by
  induction h with
  | nil => intro k env _; rfl
  | @cons t ts a as v vs h _ ih =>
    intro k env he
    simp only [slots, envFor, List.map_cons]
    congr 1
    · rw [List.lookup_append, he k (Nat.le_refl _)]
      simp
    · have := ih (k + 1) (env ++ [(k, v)]) (fun j hj => by
        rw [List.lookup_append, he j (by omega), List.lookup_cons, show (j == k) = false by rw [beq_eq_false_iff_ne]; omega]
        rfl)
      rw [List.append_assoc] at this
      exact this

theorem denote_length {f32 : List Byte → List Byte} {i : Bool} {m : Mem} {ts : List CTy} {as : List LArg}
    {vs : List (List Byte)} (h : DenoteAll i f32 m ts as vs) : as.length = ts.length := by
  induction h with
  | nil => rfl
  | cons _ _ ih => simp [ih]

theorem write_stored (m : Mem) (p : Nat) (bs : List Byte) : m.write p bs = stored m p bs := by
  unfold Mem.write stored
  congr 1
  funext x
  by_cases h : p ≤ x ∧ x < p + bs.length
  · rw [dif_pos h, if_pos h.1, List.getElem?_eq_getElem (by omega)]
    rfl
  · rw [dif_neg h]
    split
    · rw [List.getElem?_eq_none (by omega)]
      rfl
    · rfl

theorem exec_void {py : PyVer} {f32 : List Byte → List Byte} {I : Intrinsics} {m m' : Mem} {args : List LArg}
    {ds : List Decl} {callee : Ident} {passed : List Nat} {env : List (Nat × List Byte)} {v : List Byte}
    (hd : declare py f32 m args ds = .ok (env, none))
    (hI : I callee (passed.map fun k => (env.lookup k).getD []) m = some (v, m')) :
    exec py f32 I m args (.call args.length ds callee passed none) = .ok m' .none := by
  simp only [exec, hd, hI, ne_eq, not_true, if_false]
  rfl

theorem exec_result {py : PyVer} {f32 : List Byte → List Byte} {I : Intrinsics} {m m' : Mem} {a : LArg}
    {args : List LArg} {ds : List Decl} {callee : Ident} {passed : List Nat} {env : List (Nat × List Byte)}
    {v : List Byte} {t : CTy} {p : Nat} (hd : declare py f32 m (a :: args) ds = .ok (env, none))
    (hI : I callee (passed.map fun k => (env.lookup k).getD []) m = some (v, m')) (ha : address t m' a = .ok p) :
    exec py f32 I m (a :: args) (.call (args.length + 1) ds callee passed (some t)) = .ok (stored m' p v) .none := by
  simp only [exec, hd, hI, List.length_cons, ne_eq, not_true, if_false, List.getElem?_cons_zero, ha, write_stored]
  rfl

/-- A supported method does what its documentation says, with cells for pointers. -/
theorem exec_effect {py : PyVer} {f32 : List Byte → List Byte} {I : Intrinsics} {s : Stub} {m m' : Mem}
    {args : List LArg} (hr : s.raises = false) (hn : needsConst s = false) (h : Effect true f32 I s m args m')
    (he : ExactAll py s args) : exec py f32 I m args (implFor s) = .ok m' .none := by
  unfold implFor
  rw [hr, hn, cond_false, cond_false]
  cases h with
  | @void _ vals v _ h0 hd hI =>
    have hl := denote_length hd
    have hdec := declare_exact hd [] (by simpa [ExactAll, h0] using he)
    have hlk := lookup_env hd 0 [] (fun _ _ => rfl)
    rw [h0, ← hl]
    exact exec_void hdec (hlk.symm ▸ hI)
  | @result t p as vals v m' h0 hd hI ha =>
    have hl := denote_length hd
    have hdec := declare_exact hd [.obj (.int p)] (by simpa [ExactAll, h0] using he)
    have hlk := lookup_env hd 1 [] (fun _ _ => rfl)
    rw [h0, ← hl]
    exact exec_result hdec (hlk.symm ▸ hI) (address_at ha)

theorem denotes_direct {f32 : List Byte → List Byte} {m : Mem} {t : CTy} {a : LArg} {v : List Byte} (ht : t ≠ .ptr)
    (h : Denotes false f32 m t a v) : Denotes true f32 m t a v := by
  cases h with
  | boxed ht h => exact .boxed ht h
  | integer ht h => exact .integer ht h
  | pointer => exact absurd rfl ht
  | cell hi => cases hi
  | double => exact .double
  | float => exact .float

theorem denoteAll_direct {f32 : List Byte → List Byte} {m : Mem} {ts : List CTy} {as : List LArg}
    {vs : List (List Byte)} (h : DenoteAll false f32 m ts as vs) (ht : CTy.ptr ∉ ts) : DenoteAll true f32 m ts as vs := by
  induction h with
  | nil => exact .nil
  | cons h _ ih =>
    rw [List.mem_cons, not_or] at ht
    exact .cons (denotes_direct (Ne.symm ht.1) h) (ih ht.2)

theorem effect_direct {f32 : List Byte → List Byte} {I : Intrinsics} {s : Stub} {m m' : Mem} {args : List LArg}
    (h : Effect false f32 I s m args m') (ht : CTy.ptr ∉ s.params) : Effect true f32 I s m args m' := by
  cases h with
  | void hr hd hI => exact .void hr (denoteAll_direct hd ht) hI
  | result hr hd hI ha => exact .result hr (denoteAll_direct hd ht) hI ha

end Verif.LowAVX512
