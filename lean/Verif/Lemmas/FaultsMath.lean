import Verif.Lemmas.Faults
import Verif.Lemmas.Range
import Verif.Lemmas.Pow

/-!
# What can go wrong in the functions: lemmas
-/

namespace Ieme

open Res IntTy

variable {T L R W F : IntTy} {o : Ops} {f g : Raw} {dz : Prop} {n d : ℤ}

theorem Fault.Arith.calc {k : Fault} (h : Fault.Arith T dz k) : Fault.Calc dz k := by
  cases k <;> first | trivial | exact h

theorem Fault.Calc.mono {dz' : Prop} (h : dz → dz') {k : Fault} (hk : Fault.Calc dz k) :
    Fault.Calc dz' k := by
  cases k <;> first | trivial | exact h hk | exact hk

theorem Res.Triple.arith {α : Type} {P : α → Prop} {x : Res α} (h : x.Triple P (Fault.Arith T False)) :
    x.Triple P (Fault.Arith T dz) := h.mono (fun _ h => h) fun _ => Fault.Arith.mono False.elim

theorem Res.Triple.calc {α : Type} {P : α → Prop} {x : Res α} {dz' : Prop}
    (h : x.Triple P (Fault.Arith T dz)) (hd : dz → dz') : x.Triple P (Fault.Calc dz') :=
  h.mono (fun _ h => h) fun _ h => h.calc.mono hd

theorem Raw.conv_triple {K : Fault → Prop} (f : Raw) : (f.conv T).Triple
    (fun g => g.InRange T ∧ (f.InRange T → g = f)) K := by
  refine (Ieme.conv_triple _).bind fun a ha => ?_
  refine (Ieme.conv_triple _).bind fun b hb => ?_
  exact Triple.pure ⟨⟨ha.1, hb.1⟩, fun h => by rw [ha.2 h.1, hb.2 h.2]⟩

theorem Fraction.toCommon_triple {K : Fault → Prop} {a : Args} (ha : a.HaveTypes L R) :
    (Fraction.toCommon L R a).Triple (fun b => b.InRange (IntTy.common L R) ∧
      (a.InRange (IntTy.common L R) → b = a)) K := by
  refine Triple.intro (fun b w h => ⟨Fraction.toCommon_all ha _ _ h, fun hc => ?_⟩) fun k h => ?_
  · have raw : ∀ {S : IntTy} {f : Raw}, f.InRange (IntTy.common L R) →
        (if S = IntTy.common L R then (Pure.pure f : Res Raw) else f.conv (IntTy.common L R)) ⇓ f :=
      fun {S f} h => by
        split
        · rfl
        · rw [Raw.conv, conv_clean.2 ⟨h.1, rfl⟩, ok_bind_false, conv_clean.2 ⟨h.2, rfl⟩]; rfl
    have int : ∀ {S : IntTy} {x : ℤ}, (IntTy.common L R).InRange x →
        (if S = IntTy.common L R then (Pure.pure x : Res ℤ) else (IntTy.common L R).conv x) ⇓ x :=
      fun {S f} h => by
        split
        · rfl
        · rw [conv_clean.2 ⟨h, rfl⟩]
    cases a with
    | ff l r =>
      rw [Fraction.toCommon] at h
      simp only [raw hc.1, raw hc.2, ok_bind_false, pure_eq_ok] at h
      exact h.1.symm
    | fr l r =>
      rw [Fraction.toCommon] at h
      simp only [raw hc.1, int hc.2, ok_bind_false, pure_eq_ok] at h
      exact h.1.symm
    | rf l r =>
      rw [Fraction.toCommon] at h
      simp only [int hc.1, raw hc.2, ok_bind_false, pure_eq_ok] at h
      exact h.1.symm
  · suffices hs : (Fraction.toCommon L R a).Triple (fun _ => True) (fun _ => False) from
      (hs.fault h).elim
    have raw : ∀ {S : IntTy} {f : Raw}, Triple
        (if S = IntTy.common L R then (Pure.pure f : Res Raw) else f.conv (IntTy.common L R))
        (fun _ => True) (fun _ => False) := fun {S f} => by
      split
      · exact Triple.pure trivial
      · exact (Raw.conv_triple f).mono (fun _ _ => trivial) (fun _ h => h)
    have int : ∀ {S : IntTy} {x : ℤ}, Triple
        (if S = IntTy.common L R then (Pure.pure x : Res ℤ) else (IntTy.common L R).conv x)
        (fun _ => True) (fun _ => False) := fun {S f} => by
      split
      · exact Triple.pure trivial
      · exact (Ieme.conv_triple _).mono (fun _ _ => trivial) (fun _ h => h)
    cases a with
    | ff l r => exact raw.bind fun _ _ => raw.bind fun _ _ => Triple.pure trivial
    | fr l r => exact raw.bind fun _ _ => int.bind fun _ _ => Triple.pure trivial
    | rf l r => exact int.bind fun _ _ => raw.bind fun _ _ => Triple.pure trivial

/-- The operators between fractions over one type. -/
theorem Fraction.arith_triple {op : ArithOp} {a : Args} (ha : a.InRange T) :
    (Fraction.arith T T o op a).Triple
      (fun r => r.InRange T ∧ (T.signed = true → a.Defined → (op = .divides → ¬ a.ZeroRight) →
        r.den ≠ 0)) (Fault.Arith T (DivZero T op a)) := by
  rw [Fraction.arith_self]; exact Ops.arith_triple ha

/-- Without `%`, only undefined operands can lead to a division by zero. -/
theorem DivZero.undefined {op : ArithOp} {a : Args} (h : DivZero T op a) (hop : op ≠ .modulus) :
    T.signed = true → ¬ a.Defined := fun hs hd => hop (h hs hd).1

/-! ## Queries -/

theorem mathAbs_triple (hn : T.InRange n) :
    (mathAbs T n).Triple (fun _ => True) (fun k => k = .overflow ∧ T.signed = true) := by
  unfold mathAbs
  split
  · exact Triple.pure trivial
  · exact (Ieme.arith_triple _ (fun hs => ⟨rfl, hs⟩)).mono (fun _ _ => trivial) (fun _ h => h)

theorem Raw.isProper_triple (hf : f.InRange T) :
    (f.isProper T).Triple (fun _ => True) (fun k => k = .overflow ∧ T.signed = true) :=
  (mathAbs_triple hf.1).bind fun _ _ => (mathAbs_triple hf.2).bind fun _ _ => Triple.pure trivial

theorem Raw.isImproper_triple (hf : f.InRange T) :
    (f.isImproper T).Triple (fun _ => True) (fun k => k = .overflow ∧ T.signed = true) :=
  (Raw.isProper_triple hf).bind fun _ _ => Triple.pure trivial

theorem Raw.isInteger_triple (hf : f.InRange T) :
    (f.isInteger T).Triple (fun _ => True) (fun k => k = .overflow ∧ T.signed = true) := by
  unfold Raw.isInteger
  split
  · rename_i h
    have h0 : f.den ≠ 0 := by simpa [Raw.isDefined] using h
    exact (mod_triple hf.1 hf.2 (fun hs => ⟨rfl, hs⟩) (fun h => absurd h h0)).bind
      fun _ _ => Triple.pure trivial
  · exact Triple.pure trivial

theorem Raw.isUnitFraction_triple (hf : f.InRange T) :
    (f.isUnitFraction T).Triple (fun _ => True) (fun k => k = .overflow ∧ T.signed = true) := by
  unfold Raw.isUnitFraction
  split
  · rename_i h
    have h0 : f.num ≠ 0 := by simp at h; exact h.2
    exact (mod_triple hf.2 hf.1 (fun hs => ⟨rfl, hs⟩) (fun h => absurd h h0)).bind
      fun _ _ => Triple.pure trivial
  · exact Triple.pure trivial

theorem Raw.isReducedIgnoreSigns_triple (hf : f.InRange T) :
    (f.isReducedIgnoreSigns T).Triple (fun _ => True)
      (fun k => k = .gcdPrecond ∧ T.signed = true) := by
  unfold Raw.isReducedIgnoreSigns
  split
  · exact (gcd_triple hf.1 hf.2 (fun hs => ⟨rfl, hs⟩)).bind fun _ _ => Triple.pure trivial
  · exact Triple.pure trivial

theorem Raw.isReduced_triple (hf : f.InRange T) :
    (f.isReduced T).Triple (fun _ => True) (fun k => k = .gcdPrecond ∧ T.signed = true) := by
  unfold Raw.isReduced
  split
  · exact Raw.isReducedIgnoreSigns_triple hf
  · exact Triple.pure trivial

/-! ## Rounding -/

namespace Fraction

theorem trunc_triple (hf : f.InRange T) :
    (trunc T f).Triple T.InRange
      (fun k => k = .overflow ∧ T.signed = true ∨ k = .divByZero ∧ f.den = 0) :=
  (div_triple hf.1 hf.2 (fun hs => Or.inl ⟨rfl, hs⟩) (fun h => Or.inr ⟨rfl, h⟩)).mono
    (fun _ h => h.1) (fun _ h => h)

theorem ceil_triple (hf : f.InRange T) :
    (ceil T f).Triple T.InRange
      (fun k => k = .overflow ∧ T.signed = true ∨ k = .divByZero ∧ f.den = 0) := by
  refine (trunc_triple hf).bind fun t ht => ?_
  refine ((Raw.isInteger_triple hf).mono (fun _ h => h) (fun _ h => Or.inl h)).bind fun i _ => ?_
  split
  · exact Triple.pure ht
  · exact (Ieme.arith_triple _ (fun hs => Or.inl ⟨rfl, hs⟩)).mono (fun _ h => h.1) (fun _ h => h)

theorem floor_triple (hf : f.InRange T) :
    (floor T f).Triple T.InRange
      (fun k => k = .overflow ∧ T.signed = true ∨ k = .divByZero ∧ f.den = 0) := by
  refine (trunc_triple hf).bind fun t ht => ?_
  refine ((Raw.isInteger_triple hf).mono (fun _ h => h) (fun _ h => Or.inl h)).bind fun i _ => ?_
  split
  · exact Triple.pure ht
  · exact (Ieme.arith_triple _ (fun hs => Or.inl ⟨rfl, hs⟩)).mono (fun _ h => h.1) (fun _ h => h)

theorem round_arith {k : Fault}
    (h : k = .overflow ∧ T.signed = true ∨ k = .divByZero ∧ f.den = 0) :
    Fault.Arith T (T.signed = true → f.den = 0) k := by
  rcases h with ⟨rfl, h⟩ | ⟨rfl, h⟩
  · exact h
  · exact fun _ => h

theorem round_triple (hf : f.InRange T) :
    (round T o f).Triple T.InRange (Fault.Arith T (T.signed = true → f.den = 0)) := by
  refine ((floor_triple hf).mono (fun _ h => h) (fun _ => round_arith)).bind fun t ht => ?_
  refine ((arith_triple (o := o) (op := .minus) (a := .fr f t) ⟨hf, ht⟩).mono (fun _ h => h)
    (fun k => Fault.Arith.mono ?_)).bind fun d hd => ?_
  · intro h hs
    by_contra h0
    exact h.undefined (by simp) hs h0
  · rw [cmp_self]
    refine (Ops.cmp_faults (a := .ff d (mk 1 2)) ⟨hd.1, by simp [mk, Raw.InRange]⟩).arith.bind
      fun _ _ => ?_
    split
    · exact Triple.pure ht
    · exact (Ieme.arith_triple _ (fun hs => hs)).mono (fun _ h => h.1) (fun _ h => h)

theorem toWhole_triple (mode : RoundMode) (hf : f.InRange T) :
    (toWhole T o f mode).Triple T.InRange (Fault.Arith T (T.signed = true → f.den = 0)) := by
  cases mode
  · exact (trunc_triple hf).mono (fun _ h => h) (fun _ => round_arith)
  · exact (ceil_triple hf).mono (fun _ h => h) (fun _ => round_arith)
  · exact (floor_triple hf).mono (fun _ h => h) (fun _ => round_arith)
  · exact round_triple hf
  · exact round_triple hf

theorem scale_triple (hf : f.InRange T) (hd : T.InRange d) :
    (arith T T o .multiplies (.fr f d)).Triple
      (fun p => p.InRange T ∧ (T.signed = true → f.den ≠ 0 → p.den ≠ 0))
      (Fault.Arith T (T.signed = true → f.den = 0)) := by
  refine (arith_triple (o := o) (op := .multiplies) (a := .fr f d) ⟨hf, hd⟩).mono
    (fun p h => ⟨h.1, fun hs h0 => h.2 hs h0 (by simp)⟩) (fun k => Fault.Arith.mono ?_)
  intro h hs
  by_contra h0
  exact h.undefined (by simp) hs h0

theorem redenominate_triple (mode : RoundMode) (hf : f.InRange T) (hd : T.InRange d) :
    (redenominate T o f d mode).Triple (fun _ => True)
      (Fault.Arith T (T.signed = true → f.den = 0)) := by
  have sub : ∀ {p : Raw}, (T.signed = true → f.den ≠ 0 → p.den ≠ 0) →
      (T.signed = true → p.den = 0) → T.signed = true → f.den = 0 := fun h1 h2 hs => by
    by_contra h; exact h1 hs h (h2 hs)
  have whole : ∀ {p : Raw} (m : RoundMode),
      (p.InRange T ∧ (T.signed = true → f.den ≠ 0 → p.den ≠ 0)) →
      (toWhole T o p m).Triple T.InRange (Fault.Arith T (T.signed = true → f.den = 0)) :=
    fun {p} m hp => (toWhole_triple m hp.1).mono (fun _ h => h)
      (fun k => Fault.Arith.mono (sub hp.2))
  have pos : ∀ (m : RoundMode), Triple (do
      let p ← arith T T o .multiplies (.fr f d)
      let n ← toWhole T o p m
      return mk n d) (fun _ => True) (Fault.Arith T (T.signed = true → f.den = 0)) := fun m =>
    (scale_triple hf hd).bind fun p hp => (whole m hp).bind fun _ _ => Triple.pure trivial
  have neg : ∀ (m : RoundMode), Triple (do
      let e ← T.neg d
      let p ← arith T T o .multiplies (.fr f e)
      let c ← toWhole T o p m
      let n ← T.neg c
      return mk n d) (fun _ => True) (Fault.Arith T (T.signed = true → f.den = 0)) := fun m =>
    (Ieme.arith_triple _ (fun hs => hs)).bind fun e he =>
      (scale_triple hf he.1).bind fun p hp => (whole m hp).bind fun _ _ =>
        (Ieme.arith_triple _ (fun hs => hs)).bind fun _ _ => Triple.pure trivial
  cases mode
  · exact pos .trunc
  · show Triple (ceilRedenominate T o f d) _ _
    unfold ceilRedenominate
    split
    · exact pos .ceil
    · exact neg .ceil
  · show Triple (floorRedenominate T o f d) _ _
    unfold floorRedenominate
    split
    · exact pos .floor
    · exact neg .floor
  · exact pos .round
  · exact pos .round

theorem abs_triple (hf : f.InRange T) :
    (abs T o f).Triple (fun _ => True) (Fault.Arith T False) := by
  unfold abs
  split
  · exact Triple.pure trivial
  · exact (Ops.negate_faults hf).mono (fun _ _ => trivial) (fun _ h => h)

end Fraction

/-! ## Powers -/

theorem mathPow_triple (b e : ℤ) :
    (mathPow T b e).Triple (fun r => T.InRange r ∧ (T.signed = true → b ≠ 0 → r ≠ 0))
      (fun k => k = .overflow ∧ T.signed = true) := by
  induction h : e.natAbs using Nat.strong_induction_on generalizing e with
  | _ m ih =>
    rw [mathPow]
    split
    · exact Triple.pure ⟨inRange_one, fun _ _ => one_ne_zero⟩
    split
    · rename_i h0 h1
      have h2 : 0 < e := by
        by_contra hc
        have h2 := Int.neg_tmod (-e) 2
        have h3 := Int.tmod_nonneg 2 (a := -e) (by omega)
        rw [Int.neg_neg] at h2
        omega
      refine (ih _ (by omega) (e - 1) rfl).bind fun p hp => ?_
      refine (Ieme.arith_triple _ (fun hs => ⟨rfl, hs⟩)).mono (fun r hr => ⟨hr.1, fun hs hb => ?_⟩)
        (fun _ h => h)
      rw [hr.2 hs]
      exact mul_ne_zero hb (hp.2 hs hb)
    · rename_i h0 h1
      refine (ih _ (by
        rw [Int.natAbs_tdiv, ← h]
        exact Nat.div_lt_self (by omega) (by decide)) (e.tdiv 2) rfl).bind fun p hp => ?_
      refine (Ieme.arith_triple _ (fun hs => ⟨rfl, hs⟩)).mono (fun r hr => ⟨hr.1, fun hs hb => ?_⟩)
        (fun _ h => h)
      rw [hr.2 hs]
      exact mul_ne_zero (hp.2 hs hb) (hp.2 hs hb)

theorem Fraction.pow_triple (b e : ℤ) :
    (Fraction.pow T b e).Triple (fun r => r.InRange T ∧ (T.signed = true → b ≠ 0 → r.den ≠ 0))
      (fun k => k = .overflow) := by
  unfold Fraction.pow
  have hp : ∀ m, (mathPow T b m).Triple
      (fun r => T.InRange r ∧ (T.signed = true → b ≠ 0 → r ≠ 0)) (fun k => k = .overflow) :=
    fun m => (mathPow_triple b m).mono (fun _ h => h) (fun _ h => h.1)
  split
  · refine (Ieme.conv_triple _).bind fun m _ => (hp m).bind fun p h => ?_
    exact Triple.pure ⟨⟨h.1, inRange_one⟩, fun _ _ => one_ne_zero⟩
  · refine (Ieme.arith_triple (K := fun k => k = .overflow) _ (fun _ => rfl)).bind fun m' _ => ?_
    refine (Ieme.conv_triple _).bind fun m _ => (hp m).bind fun p h => ?_
    exact Triple.pure ⟨⟨inRange_one, h.1⟩, h.2⟩

theorem conv_two_pow_ne {m : ℕ} (hm : m < T.bits) {r : ℤ} {w : Bool}
    (h : T.conv ((2 ^ m : ℕ) : ℤ) = .ok r w) : r ≠ 0 := by
  have hlt : 2 ^ m < 2 ^ T.bits := Nat.pow_lt_pow_right (by decide) hm
  have hpos : 0 < 2 ^ m := Nat.pow_pos (by decide)
  rcases conv_eq_ok.1 h with ⟨-, rfl, -⟩ | ⟨-, rfl, -⟩
  · exact_mod_cast hpos.ne'
  · intro h0
    have hd : ((2 ^ T.bits : ℕ) : ℤ) ∣ ((2 ^ m : ℕ) : ℤ) := by
      unfold wrap at h0
      split at h0
      · exact Int.dvd_of_bmod_eq_zero h0
      · exact Int.dvd_of_emod_eq_zero h0
    have := Nat.le_of_dvd hpos (by exact_mod_cast hd)
    omega

/-- Powers of two: too large an exponent shifts too far; the smallest one overflows. -/
theorem Fraction.pow2_triple {e : ℤ} (he : i32.InRange e) :
    (Fraction.pow2 T e).Triple (fun r => r.InRange T ∧ r.den ≠ 0)
      (fun k => k = .shiftRange ∧ T.bits ≤ e.natAbs ∨ k = .overflow ∧ e = -2147483648) := by
  by_cases hm : e = -2147483648
  · subst hm
    rw [Fraction.pow2, if_neg (by decide), show i32.neg (-2147483648) = .fault .overflow by decide,
      fault_bind]
    exact Or.inr ⟨rfl, rfl⟩
  · rw [Fraction.pow2_eq he hm]
    split
    · rename_i hb
      refine ((Ieme.conv_triple _).and_post fun r w h => conv_two_pow_ne hb h).bind ?_
      rintro p ⟨⟨h1, -⟩, h2⟩
      refine Triple.pure ?_
      split
      · exact ⟨⟨h1, inRange_one⟩, one_ne_zero⟩
      · exact ⟨⟨inRange_one, h1⟩, h2⟩
    · rename_i hb
      exact Or.inl ⟨rfl, by omega⟩

end Ieme
