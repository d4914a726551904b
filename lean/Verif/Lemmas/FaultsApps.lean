import Verif.Lemmas.FaultsMath
import Verif.Lemmas.FloatField
import Verif.Lemmas.ParseValue
import Verif.Model.Duration
import Verif.Spec.Expr
import Verif.Model.Assign
import Verif.Model.MixedNumber

/-!
# What can go wrong in mixed numbers, parsing, floating point and durations: lemmas
-/

namespace Ieme

open Res IntTy

variable {T L R W F S : IntTy} {o : Ops} {f g : Raw} {dz : Prop} {n d : ℤ}

/-- A signed common type contains both types. -/
theorem common_signed (h : (IntTy.common L R).signed = true) :
    (∀ {n : ℤ}, L.InRange n → (IntTy.common L R).InRange n) ∧
      ∀ {n : ℤ}, R.InRange n → (IntTy.common L R).InRange n := by
  have key : ∀ {A B : IntTy} {n : ℤ}, B.signed = true →
      (A.bits ≤ B.bits ∧ A.signed = true ∨ A.bits < B.bits) → A.InRange n → B.InRange n := by
    intro A B n hB hAB h
    have hw := A.wide
    unfold InRange IntTy.min IntTy.max at h ⊢
    rw [hB] at ⊢
    simp only [if_true]
    have le : ∀ {a b : ℕ}, a ≤ b → 2 ^ a ≤ 2 ^ b := fun h => Nat.pow_le_pow_right (by decide) h
    split at h
    · have := le (show A.bits - 1 ≤ B.bits - 1 by omega)
      omega
    · rename_i hA
      have := le (show A.bits ≤ B.bits - 1 by
        rcases hAB with ⟨-, h⟩ | h
        · exact absurd h hA
        · omega)
      omega
  unfold IntTy.common at h ⊢
  split at h
  · rename_i hs
    split at h
    · rename_i hb
      rw [if_pos hs, if_pos hb]
      exact ⟨key h (Or.inl ⟨by omega, by rw [hs]; exact h⟩), fun h => h⟩
    · rename_i hb
      rw [if_pos hs, if_neg hb]
      exact ⟨fun h => h, key h (Or.inl ⟨by omega, by rw [← hs]; exact h⟩)⟩
  · rename_i hs
    rw [if_neg hs]
    split at h
    · rename_i hA
      rw [if_pos hA]
      split at h
      · rw [hA, h] at hs; exact absurd rfl hs
      · rename_i hb
        rw [if_neg hb]
        exact ⟨fun h => h, key h (Or.inr (by omega))⟩
    · rename_i hA
      rw [if_neg hA]
      split at h
      · exact absurd h hA
      · rename_i hb
        rw [if_neg hb]
        exact ⟨key h (Or.inr (by omega)), fun h => h⟩

/-! ## Mixed numbers -/

namespace Mixed

/-- A mixed number of the given types. -/
abbrev Typed (W F : IntTy) (m : Mixed) : Prop := W.InRange m.whole ∧ m.frac.InRange F

theorem fixImproper_triple {m : Mixed} (hm : m.Typed W F) :
    (m.fixImproper W F o).Triple
      (fun r => r.Typed W F ∧ (F.signed = true → m.frac.den ≠ 0 → r.frac.den ≠ 0))
      (Fault.Calc (F.signed = true → m.frac.den = 0)) := by
  refine ((Raw.isImproper_triple hm.2).mono (fun _ h => h) ?_).bind fun b _ => ?_
  · rintro k ⟨rfl, -⟩; trivial
  split
  · refine ((Fraction.trunc_triple hm.2).mono (fun _ h => h) ?_).bind fun t ht => ?_
    · rintro k (⟨rfl, -⟩ | ⟨rfl, h⟩)
      · trivial
      · exact fun _ => h
    refine (Ieme.conv_triple _).bind fun t' ht' => ?_
    refine (Ieme.arith_triple _ (fun _ => trivial)).bind fun w hw => ?_
    rw [Fraction.assignR, if_pos rfl]
    refine ((Fraction.arith_triple (o := o) (op := .minus) (a := .fr m.frac t) ⟨hm.2, ht⟩).calc
      fun h hs => ?_).bind fun r hr => ?_
    · by_contra h0
      exact h.undefined (by simp) hs h0
    · exact Triple.pure ⟨⟨hw.1, hr.1⟩, fun hs h0 => hr.2 hs h0 (by simp)⟩
  · exact Triple.pure ⟨hm, fun _ h => h⟩

theorem fixSigns_triple {m : Mixed} (hm : m.Typed W F) :
    (m.fixSigns W F o).Triple (fun r => r.Typed W F)
      (Fault.Calc (F.signed = true → m.frac.den = 0)) := by
  have add : ∀ {z : ℤ}, F.InRange z → (Fraction.arith F F o .plus (.rf z m.frac)).Triple
      (fun r => r.InRange F) (Fault.Calc (F.signed = true → m.frac.den = 0)) := fun {z} hz => by
    refine ((Fraction.arith_triple (o := o) (op := .plus) (a := .rf z m.frac) ⟨hz, hm.2⟩).calc
      fun h hs => ?_).mono (fun _ h => h.1) (fun _ h => h)
    by_contra h0
    exact h.undefined (by simp) hs h0
  unfold fixSigns
  split
  · refine (Ieme.arith_triple _ (fun _ => trivial)).bind fun w hw => ?_
    exact (add inRange_one).bind fun r hr => Triple.pure ⟨hw.1, hr⟩
  · split
    · refine (Ieme.arith_triple _ (fun _ => trivial)).bind fun w hw => ?_
      refine (Ieme.arith_triple _ (fun _ => trivial)).bind fun z hz => ?_
      exact (add hz.1).bind fun r hr => Triple.pure ⟨hw.1, hr⟩
    · exact Triple.pure hm

theorem mk'_triple {w : ℤ} (hw : W.InRange w) (hf : f.InRange F) :
    (mk' W F o w f).Triple (Typed W F) (Fault.Calc (F.signed = true → f.den = 0)) := by
  refine (fixImproper_triple (m := ⟨w, f⟩) ⟨hw, hf⟩).bind fun m hm => ?_
  refine (fixSigns_triple hm.1).mono (fun _ h => h) fun k => Fault.Calc.mono fun h hs => ?_
  by_contra h0
  exact hm.2 hs h0 (h hs)

theorem ofFraction_triple {v : Raw} (hv : v.InRange S) :
    (ofFraction W F o S v).Triple (Typed W F) (Fault.Calc (S.signed = true → v.den = 0)) := by
  refine ((Fraction.trunc_triple hv).mono (fun _ h => h) ?_).bind fun t ht => ?_
  · rintro k (⟨rfl, -⟩ | ⟨rfl, h⟩)
    · trivial
    · exact fun _ => h
  refine (Ieme.conv_triple _).bind fun w hw => ?_
  refine (Ieme.conv_triple _).bind fun w' hw' => ?_
  refine ((Fraction.arith_triple (o := o) (op := .minus) (a := .fr v w') ⟨hv, hw'.1⟩).calc
    fun h hs => ?_).bind fun r hr => ?_
  · by_contra h0
    exact h.undefined (by simp) hs h0
  · exact (Raw.conv_triple _).bind fun g hg => Triple.pure ⟨hw.1, hg.1⟩

theorem asFraction_triple {m : Mixed} (hm : m.Typed W F) :
    (m.asFraction W F o).Triple (Raw.InRange (IntTy.common W F))
      (Fault.Calc ((IntTy.common W F).signed = true → m.frac.den = 0)) := by
  refine (Ieme.conv_triple _).bind fun w hw => ?_
  refine (Raw.conv_triple _).bind fun g hg => ?_
  refine ((Fraction.arith_triple (o := o) (op := .plus) (a := .rf w g) ⟨hw.1, hg.1⟩).calc
    fun h hs => ?_).mono (fun _ h => h.1) (fun _ h => h)
  by_contra h0
  have e := hg.2 ⟨(common_signed hs).2 hm.2.1, (common_signed hs).2 hm.2.2⟩
  exact h.undefined (by simp) hs (by rw [e]; exact h0)

theorem neg_triple {m : Mixed} (hm : m.Typed W F) :
    (m.neg W F o).Triple (Typed W F) (Fault.Calc (F.signed = true → m.frac.den = 0)) := by
  refine (Ieme.arith_triple _ (fun _ => trivial)).bind fun w hw => ?_
  refine ((Ops.negate_faults (o := o) hm.2).calc False.elim).bind fun g hg => ?_
  refine (mk'_triple hw.1 hg.1).mono (fun _ h => h) fun k => Fault.Calc.mono fun h hs => ?_
  by_contra h0
  exact hg.2 hs h0 (h hs)

theorem add_triple {W₁ F₁ W₂ F₂ : IntTy} {l r : Mixed} (hl : l.Typed W₁ F₁) (hr : r.Typed W₂ F₂) :
    (add W₁ F₁ W₂ F₂ o l r).Triple (Typed (IntTy.common W₁ W₂) (IntTy.common F₁ F₂))
      (Fault.Calc ((IntTy.common F₁ F₂).signed = true → l.frac.den = 0 ∨ r.frac.den = 0)) := by
  refine (Ieme.conv_triple _).bind fun lw _ => ?_
  refine (Ieme.conv_triple _).bind fun rw _ => ?_
  refine (Ieme.arith_triple _ (fun _ => trivial)).bind fun w hw => ?_
  refine (Raw.conv_triple _).bind fun lf hlf => ?_
  refine (Raw.conv_triple _).bind fun rf hrf => ?_
  have el : ∀ hs, lf = l.frac := fun hs => hlf.2 ⟨(common_signed hs).1 hl.2.1,
    (common_signed hs).1 hl.2.2⟩
  have er : ∀ hs, rf = r.frac := fun hs => hrf.2 ⟨(common_signed hs).2 hr.2.1,
    (common_signed hs).2 hr.2.2⟩
  refine ((Fraction.arith_triple (o := o) (op := .plus) (a := .ff lf rf) ⟨hlf.1, hrf.1⟩).calc
    fun h hs => ?_).bind fun g hg => ?_
  · by_contra h0
    push Not at h0
    exact h.undefined (by simp) hs ⟨by rw [el hs]; exact h0.1, by rw [er hs]; exact h0.2⟩
  · refine (mk'_triple hw.1 hg.1).mono (fun _ h => h) fun k => Fault.Calc.mono fun h hs => ?_
    by_contra h0
    push Not at h0
    exact hg.2 hs ⟨by rw [el hs]; exact h0.1, by rw [er hs]; exact h0.2⟩ (by simp) (h hs)

theorem addWhole_triple {W₁ W₂ : IntTy} {l : Mixed} {r : ℤ} (hl : l.Typed W₁ F) :
    (addWhole W₁ F W₂ o l r).Triple (Typed (IntTy.common W₁ W₂) F)
      (Fault.Calc (F.signed = true → l.frac.den = 0)) := by
  refine (Ieme.conv_triple _).bind fun lw _ => ?_
  refine (Ieme.conv_triple _).bind fun rw _ => ?_
  refine (Ieme.arith_triple _ (fun _ => trivial)).bind fun w hw => ?_
  exact mk'_triple hw.1 hl.2

end Mixed

/-! ## Literals -/

namespace Parse

theorem digitLoop_triple (base : ℤ) (s : List Char) {a p : ℤ} (ha : T.InRange a) :
    (digitLoop T base s a p).Triple T.InRange (fun k => k = .overflow ∧ T.signed = true) := by
  induction s generalizing a p with
  | nil => exact Triple.pure ha
  | cons c s ih =>
    rw [digitLoop]
    split
    · exact ih ha
    · have hd : (digitAsInt T c).Triple (fun _ => True)
          (fun k => k = .overflow ∧ T.signed = true) := by
        unfold digitAsInt
        split
        · exact (Ieme.conv_triple _).mono (fun _ _ => trivial) (fun _ h => h)
        split
        · exact (Ieme.conv_triple _).mono (fun _ _ => trivial) (fun _ h => h)
        · exact (Ieme.conv_triple _).mono (fun _ _ => trivial) (fun _ h => h)
      refine hd.bind fun d _ => ?_
      refine (Ieme.arith_triple _ (fun hs => ⟨rfl, hs⟩)).bind fun q _ => ?_
      refine (Ieme.arith_triple _ (fun hs => ⟨rfl, hs⟩)).bind fun r hr => ?_
      refine (Ieme.arith_triple _ (fun hs => ⟨rfl, hs⟩)).bind fun _ _ => ?_
      exact ih hr.1

theorem scan_base {s : List Char} {r : Scan} {w : Bool} (h : scan s = .ok (some r) w) :
    r.base = 10 ∨ r.base = 16 := by
  obtain ⟨o, w', h1, h2⟩ := scan_sound s
  rw [h] at h1
  cases h1
  obtain ⟨l, hv, hp, rfl⟩ := h2 r rfl
  rw [scan_complete hv hp, bind_eq_ok] at h
  obtain ⟨p, w1, w2, -, h3, -⟩ := h
  cases h3
  have : (litScan l p).base = (l.base : ℤ) := by
    unfold litScan withTail
    cases l.exp <;> rfl
  rw [this]
  exact base_cases l

theorem scanValue_triple (r : Scan) (hb : r.base = 10 ∨ r.base = 16) :
    (scanValue T o r).Triple (Raw.InRange T) (Fault.Calc (T.signed = false)) := by
  have digits : ∀ {U : IntTy} (s : List Char) (b : ℤ), (digitSequenceToInt U s b).Triple U.InRange
      (Fault.Calc (T.signed = false)) := fun {U} s b => by
    refine (digitLoop_triple b s.reverse inRange_zero).mono (fun _ h => h) ?_
    rintro k ⟨rfl, -⟩; trivial
  have defd : ∀ {op : ArithOp} {a : Args}, op ≠ .modulus → (T.signed = true → a.Defined) →
      DivZero T op a → T.signed = false := fun {op a} h1 h2 h3 => by
    cases hs : T.signed
    · rfl
    · exact absurd (h2 hs) (h3.undefined h1 hs)
  refine (Ieme.conv_triple _).bind fun base hbase => ?_
  have hb0 : base ≠ 0 := by
    rcases hb with h | h <;> rw [h] at hbase <;> rw [hbase.2 (inRange_of_nonneg_le (by decide) (by decide))] <;> decide
  refine (digits _ _).bind fun whole hw => ?_
  refine (digits _ _).bind fun num hn => ?_
  refine (Ieme.conv_triple _).bind fun prec _ => ?_
  refine ((mathPow_triple (T := T) base prec).mono (fun _ h => h) ?_).bind fun den hden => ?_
  · rintro k ⟨rfl, -⟩; trivial
  refine (digits _ _).bind fun e _ => ?_
  refine (Ieme.arith_triple _ (fun _ => trivial)).bind fun exponent _ => ?_
  refine ((Fraction.arith_triple (o := o) (op := .plus) (a := .rf whole (Fraction.mk num den))
    ⟨hw, hn, hden.1⟩).calc (defd (by simp) fun hs => hden.2 hs hb0)).bind fun sum hsum => ?_
  refine ((Fraction.pow_triple (T := T) (if r.base = 10 then 10 else 2) exponent).mono
    (fun _ h => h) ?_).bind fun power hp => ?_
  · rintro k rfl; trivial
  have he : (if r.base = 10 then (10 : ℤ) else 2) ≠ 0 := by split <;> decide
  exact ((Fraction.arith_triple (o := o) (op := .multiplies) (a := .ff sum power)
    ⟨hsum.1, hp.1⟩).calc (defd (by simp) fun hs =>
      ⟨hsum.2 hs (hden.2 hs hb0) (by simp), hp.2 hs he⟩)).mono (fun _ h => h.1) (fun _ h => h)

end Parse

/-! ## Floating point -/

namespace FloatingPoint

variable {X : Fmt}

theorem assemble_triple {bias den : ℤ} {s e m : ℕ} (hd : T.InRange den) (h0 : den ≠ 0) :
    (assemble T o bias den s e m).Triple (Raw.InRange T) (Fault.FromFloat T X) := by
  have defd : ∀ {op : ArithOp} {a : Args}, op ≠ .modulus → (T.signed = true → a.Defined) →
      DivZero T op a → T.signed = false := fun {op a} h1 h2 h3 => by
    cases hs : T.signed
    · rfl
    · exact absurd (h2 hs) (h3.undefined h1 hs)
  have lift : ∀ {op : ArithOp} {a : Args}, a.InRange T → op ≠ .modulus → op ≠ .divides →
      (T.signed = true → a.Defined) → (Fraction.arith T T o op a).Triple
        (fun r => r.InRange T ∧ (T.signed = true → r.den ≠ 0)) (Fault.FromFloat T X) := fun ha h1 h2 h3 =>
    ((Fraction.arith_triple ha).calc (defd h1 h3)).mono
      (fun r hr => ⟨hr.1, fun hs => hr.2 hs (h3 hs) (fun h => absurd h h2)⟩)
      (fun _ h => Or.inl h)
  have hs : (signFactor T s).Triple T.InRange (Fault.FromFloat T X) := by
    unfold signFactor
    split
    · exact Triple.pure inRange_one
    · exact (Ieme.arith_triple _ (fun _ => Or.inl trivial)).mono (fun _ h => h.1) (fun _ h => h)
  refine hs.bind fun sign hsign => ?_
  refine (Ieme.conv_triple _).bind fun ex _ => ?_
  refine (Ieme.arith_triple _ (fun _ => Or.inl trivial)).bind fun exponent hex => ?_
  refine (Ieme.conv_triple _).bind fun num hn => ?_
  refine (lift (a := .rf 1 (Fraction.mk num den)) ⟨inRange_one, hn.1, hd⟩ (by simp) (by simp)
    (fun _ => h0)).bind fun mant hm => ?_
  refine (lift (a := .rf sign mant) ⟨hsign, hm.1⟩ (by simp) (by simp) hm.2).bind
    fun sg hsg => ?_
  refine ((Fraction.pow2_triple (T := T) hex.1).mono (fun _ h => h) ?_).bind fun p hp => ?_
  · rintro k (⟨rfl, -⟩ | ⟨rfl, -⟩)
    · exact Or.inr (Or.inl rfl)
    · exact Or.inl trivial
  exact (lift (a := .ff sg p) ⟨hsg.1, hp.1⟩ (by simp) (by simp)
    (fun hs => ⟨hsg.2 hs, hp.2⟩)).mono (fun _ h => h.1) (fun _ h => h)

theorem toFraction_triple (b : ℕ) :
    (toFraction .little X T o b).Triple (Raw.InRange T) (Fault.FromFloat T X) := by
  rw [toFraction_little, mantissaDenominator_eq]
  split
  · rename_i hb
    refine ((Ieme.conv_triple _).and_post fun r w h => conv_two_pow_ne hb h).bind ?_
    rintro den ⟨⟨h1, -⟩, h2⟩
    split
    · exact Triple.pure ⟨inRange_zero, inRange_zero⟩
    · exact assemble_triple h1 h2
  · rename_i hb
    exact Or.inr (Or.inr ⟨rfl, by omega⟩)

theorem ofFraction_triple (hf : f.InRange T) :
    (ofFraction X T f).Triple (fun _ => True) (Fault.Arith T False) :=
  (Raw.reduce_triple _ hf).bind fun _ _ => Triple.pure trivial

end FloatingPoint

/-! ## Durations -/

namespace Chrono

theorem convert_triple {p q : Period} {c : Count} (hc : ∀ f, c = .frac f → f.InRange T) :
    (convert T o p q c).Triple (Raw.InRange T)
      (fun k => k = .illFormed ∧ ratioDivide p q = none ∨
        Fault.Arith T (T.signed = true → c.Undefined) k) := by
  unfold convert
  cases hr : ratioDivide p q with
  | none => exact Or.inl ⟨rfl, rfl⟩
  | some nd =>
    obtain ⟨n, d⟩ := nd
    simp only [treatAsFloatingPoint, true_or, if_true]
    suffices h : (durationCast T o p q c).Triple (Raw.InRange T)
        (Fault.Arith T (T.signed = true → c.Undefined)) from
      h.mono (fun _ h => h) (fun _ h => Or.inr h)
    have cast : (c.cast T).Triple (fun x => x.InRange T ∧ (¬ c.Undefined → x.den ≠ 0))
        (Fault.Arith T (T.signed = true → c.Undefined)) := by
      cases c with
      | int n =>
        exact (Ieme.conv_triple _).bind fun m hm =>
          Triple.pure ⟨⟨hm.1, inRange_one⟩, fun _ => one_ne_zero⟩
      | frac f => exact Triple.pure ⟨hc f rfl, fun h => h⟩
    have fact : ∀ m : ℤ, (factor T m).Triple (fun x => x.InRange T ∧ x.den ≠ 0)
        (Fault.Arith T (T.signed = true → c.Undefined)) := fun m =>
      (Ieme.conv_triple _).bind fun m hm =>
        Triple.pure ⟨⟨hm.1, inRange_one⟩, one_ne_zero⟩
    have op : ∀ {op : ArithOp} {x y : Raw}, op ≠ .modulus → x.InRange T → y.InRange T →
        (T.signed = true → ¬ c.Undefined → x.den ≠ 0) → y.den ≠ 0 →
        (Fraction.arith T T o op (.ff x y)).Triple
          (fun r => r.InRange T ∧ (op = .multiplies → T.signed = true → ¬ c.Undefined → r.den ≠ 0))
          (Fault.Arith T (T.signed = true → c.Undefined)) := by
      intro op x y hop hx hy h1 h2
      refine (Fraction.arith_triple (a := .ff x y) ⟨hx, hy⟩).mono
        (fun r hr => ⟨hr.1, fun he hs hu => hr.2 hs ⟨h1 hs hu, h2⟩ (by rw [he]; simp)⟩)
        (fun k => Fault.Arith.mono fun h hs => ?_)
      by_contra h0
      exact h.undefined hop hs ⟨h1 hs h0, h2⟩
    unfold durationCast
    rw [hr]
    refine cast.bind fun x hx => ?_
    split
    · exact Triple.pure hx.1
    split
    · refine (fact n).bind fun n' hn => ?_
      exact (op (by simp) hx.1 hn.1 (fun _ => hx.2) hn.2).mono (fun _ h => h.1) (fun _ h => h)
    split
    · refine (fact d).bind fun d' hd => ?_
      exact (op (by simp) hx.1 hd.1 (fun _ => hx.2) hd.2).mono (fun _ h => h.1) (fun _ h => h)
    · refine (fact n).bind fun n' hn => ?_
      refine (op (by simp) hx.1 hn.1 (fun _ => hx.2) hn.2).bind fun y hy => ?_
      refine (fact d).bind fun d' hd => ?_
      exact (op (by simp) hy.1 hd.1 (hy.2 rfl) hd.2).mono (fun _ h => h.1) (fun _ h => h)

end Chrono

/-! ## Expressions and sequences -/

/-- One operator: exact on signed types. -/
theorem Fraction.arith_value {op : ArithOp} {a : Args} {x y : Option ℚ} (ha : a.InRange T)
    (hx : T.signed = true → ∀ p q, x = some p → y = some q → a.Denote p q) :
    (Fraction.arith T T o op a).Triple
      (fun r => r.InRange T ∧ (T.signed = true → ∀ q,
        (x.bind fun u => y.bind fun v => op.value u v) = some q → Denotes r q))
      (Fault.Arith T (T.signed = true → (x.bind fun u => y.bind fun v => op.value u v) = none)) := by
  rw [Fraction.arith_self]
  have zero : ∀ {p q : ℚ}, a.Denote p q → a.Defined ∧ (a.ZeroRight → q = 0) := by
    intro p q h
    cases a with
    | ff l r => exact ⟨⟨h.1.1, h.2.1⟩, fun h0 => by
      rw [← h.2.2, show r.num = 0 from h0]; simp⟩
    | fr l r => exact ⟨h.1.1, fun h0 => by
      rw [← h.2, show r = 0 from h0]; simp⟩
    | rf l r => exact ⟨h.2.1, fun h0 => by
      rw [← h.2.2, show r.num = 0 from h0]; simp⟩
  refine ((Ops.arith_triple ha).mono (fun r h => h.1) (fun k => Fault.Arith.mono ?_)).and_post ?_
  · intro hz hs
    cases x with
    | none => rfl
    | some p =>
      cases y with
      | none => rfl
      | some q =>
        have hd := hx hs p q rfl rfl
        obtain ⟨rfl, h⟩ := hz hs (zero hd).1
        simp [ArithOp.value, (zero hd).2 h]
  · intro r w h hs v hv
    have hw := (Ops.arith_noWrap hs o op a).flag h
    subst hw
    cases x with
    | none => cases hv
    | some p =>
      cases y with
      | none => cases hv
      | some q =>
        have := Ops.arith_exact (hx hs p q rfl rfl) h
        simp only [Option.bind_some] at hv
        cases op with
        | plus => cases hv; exact this
        | minus => cases hv; exact this
        | multiplies => cases hv; exact this
        | divides =>
          simp only [ArithOp.value] at hv
          split at hv
          · cases hv
          · cases hv; exact this.1 ‹_›
        | modulus =>
          simp only [ArithOp.value] at hv
          split at hv
          · cases hv
          · cases hv; exact this.2

theorem Expr.eval_triple {e : Expr} (he : e.LeavesInRange T) :
    (e.eval T o).Triple
      (fun r => r.InRange T ∧ (T.signed = true → ∀ q, e.value = some q → Denotes r q))
      (Fault.Arith T (T.signed = true → e.value = none)) := by
  induction e with
  | lit f =>
    refine Triple.pure ⟨he, fun _ q h => ?_⟩
    simp only [Expr.value, litValue] at h
    split at h
    · cases h
    · cases h; exact ⟨‹_›, rfl⟩
  | neg e ih =>
    refine ((ih he).mono (fun _ h => h) fun k => Fault.Arith.mono fun h hs => ?_).bind
      fun v hv => ?_
    · simp [Expr.value, h hs]
    · refine ((Ops.negate_faults (o := o) hv.1).arith.mono (fun r h => h.1)
        (fun _ h => h)).and_post fun r w h hs q hq => ?_
      have hw := (Ops.negate_noWrap hs o v).flag h
      subst hw
      simp only [Expr.value, Option.map_eq_some_iff] at hq
      obtain ⟨p, hp, rfl⟩ := hq
      exact Ops.negate_exact (hv.2 hs p hp) h
  | pos e ih => exact (ih he).bind fun v hv => Triple.pure hv
  | ff op a b iha ihb =>
    refine ((iha he.1).mono (fun _ h => h) fun k => Fault.Arith.mono fun h hs => ?_).bind
      fun x hx => ?_
    · simp [Expr.value, h hs]
    refine ((ihb he.2).mono (fun _ h => h) fun k => Fault.Arith.mono fun h hs => ?_).bind
      fun y hy => ?_
    · simp [Expr.value, h hs]
    exact Fraction.arith_value (a := .ff x y) ⟨hx.1, hy.1⟩
      fun hs p q h1 h2 => ⟨hx.2 hs p h1, hy.2 hs q h2⟩
  | fr op a n ih =>
    refine ((ih he.1).mono (fun _ h => h) fun k => Fault.Arith.mono fun h hs => ?_).bind
      fun x hx => ?_
    · simp [Expr.value, h hs]
    exact Fraction.arith_value (a := .fr x n) (y := some (n : ℚ)) ⟨hx.1, he.2⟩
      fun hs p q h1 h2 => ⟨hx.2 hs p h1, by cases h2; rfl⟩
  | rf op n a ih =>
    refine ((ih he.2).mono (fun _ h => h) fun k => Fault.Arith.mono fun h hs => ?_).bind
      fun x hx => ?_
    · simp [Expr.value, h hs]
    exact Fraction.arith_value (a := .rf n x) (x := some (n : ℚ)) ⟨he.1, hx.1⟩
      fun hs p q h1 h2 => ⟨by cases h1; rfl, hx.2 hs q h2⟩

end Ieme
