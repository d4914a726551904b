import Verif.Spec.Faults
import Verif.Lemmas.Closure
import Verif.Lemmas.Exact

/-!
# What can go wrong: lemmas
-/

namespace Ieme

/-- If the evaluation finishes, the result satisfies `P`; if it fails, the failure satisfies
`K`. -/
def Res.Triple {α : Type} (x : Res α) (P : α → Prop) (K : Fault → Prop) : Prop :=
  match x with
  | .ok r _ => P r
  | .fault k => K k

namespace Res

variable {α β : Type} {P : α → Prop} {Q : β → Prop} {K : Fault → Prop}

theorem Triple.pure {a : α} (h : P a) : (Pure.pure a : Res α).Triple P K := h

theorem Triple.bind {x : Res α} {f : α → Res β} (h : x.Triple P K)
    (h' : ∀ a, P a → (f a).Triple Q K) : (x >>= f).Triple Q K := by
  cases x with
  | fault k => exact h
  | ok a w =>
    have := h' a h
    rw [bind_def, Res.bind]
    cases hfa : f a with
    | fault k => rw [hfa] at this; exact this
    | ok b w' => rw [hfa] at this; exact this

theorem Triple.mono {P' : α → Prop} {K' : Fault → Prop} {x : Res α} (h : x.Triple P K)
    (hP : ∀ a, P a → P' a) (hK : ∀ k, K k → K' k) : x.Triple P' K' := by
  cases x with
  | fault k => exact hK k h
  | ok a w => exact hP a h

theorem Triple.fault {x : Res α} {k : Fault} (h : x.Triple P K) (e : x = .fault k) : K k := by
  subst e; exact h

theorem Triple.ok {x : Res α} {r : α} {w : Bool} (h : x.Triple P K) (e : x = .ok r w) : P r := by
  subst e; exact h

theorem Triple.intro {x : Res α} (h1 : ∀ r w, x = .ok r w → P r) (h2 : ∀ k, x = .fault k → K k) :
    x.Triple P K := by
  cases x with
  | fault k => exact h2 k rfl
  | ok a w => exact h1 a w rfl

theorem Triple.and_post {x : Res α} {P' : α → Prop} (h : x.Triple P K)
    (h' : ∀ r w, x = .ok r w → P' r) : x.Triple (fun r => P r ∧ P' r) K := by
  cases x with
  | fault k => exact h
  | ok a w => exact ⟨h, h' a w rfl⟩

theorem Triple.faultsIn {x : Res α} {ks : List Fault} (h : x.Triple P (· ∈ ks)) : x.FaultsIn ks :=
  fun _ e => h.fault e

end Res

open Res IntTy

variable {T : IntTy} {K : Fault → Prop} {dz : Prop}

theorem arith_triple (x : ℤ) (hK : T.signed = true → K .overflow) :
    (T.arith x).Triple (fun r => T.InRange r ∧ (T.signed = true → r = x)) K := by
  unfold IntTy.arith
  split
  · rename_i h; exact ⟨h, fun _ => rfl⟩
  · split
    · rename_i h; exact hK h
    · rename_i h; exact ⟨wrap_inRange x, fun hs => absurd hs h⟩

theorem conv_triple (x : ℤ) :
    (T.conv x).Triple (fun r => T.InRange r ∧ (T.InRange x → r = x)) K := by
  unfold IntTy.conv
  split
  · rename_i h; exact ⟨h, fun _ => rfl⟩
  · rename_i h; exact ⟨wrap_inRange x, fun hs => absurd hs h⟩

theorem tdiv_unsigned {a b : ℤ} (hs : T.signed = false) (ha : T.InRange a) (hb : T.InRange b) :
    T.InRange (a.tdiv b) := by
  have h1 := ha.nonneg hs
  have h2 := hb.nonneg hs
  refine ha.shrink (Or.inl ⟨Int.tdiv_nonneg h1 h2, ?_⟩)
  rw [Int.tdiv_eq_ediv_of_nonneg h1]
  exact Int.ediv_le_self b h1

theorem div_triple {a b : ℤ} (ha : T.InRange a) (hb : T.InRange b)
    (hK : T.signed = true → K .overflow) (hd : b = 0 → K .divByZero) :
    (T.div a b).Triple (fun r => T.InRange r ∧ b ≠ 0 ∧ r = a.tdiv b) K := by
  unfold IntTy.div
  split
  · rename_i h; exact hd h
  · split
    · rename_i h1 h; exact ⟨h, h1, rfl⟩
    · rename_i h
      refine hK ?_
      cases hs : T.signed
      · exact absurd (tdiv_unsigned hs ha hb) h
      · rfl

theorem mod_triple {a b : ℤ} (ha : T.InRange a) (hb : T.InRange b)
    (hK : T.signed = true → K .overflow) (hd : b = 0 → K .divByZero) :
    (T.mod a b).Triple (fun r => T.InRange r ∧ b ≠ 0 ∧ r = a.tmod b) K := by
  refine Triple.intro (fun r w h => ?_) (fun k h => ?_)
  · have := mod_inRange ha h
    obtain ⟨h1, -, h3, -⟩ := mod_eq_ok.1 h
    exact ⟨this, h1, h3⟩
  · unfold IntTy.mod at h
    split at h
    · rename_i h'; cases h; exact hd h'
    · split at h
      · cases h
      · rename_i h'; cases h
        refine hK ?_
        cases hs : T.signed
        · exact absurd (tdiv_unsigned hs ha hb) h'
        · rfl

theorem natAbs_unsigned {a : ℤ} (hs : T.signed = false) (ha : T.InRange a) :
    T.InRange a.natAbs := by
  have := ha.nonneg hs
  rwa [Int.natAbs_of_nonneg this]

theorem gcd_triple {a b : ℤ} (ha : T.InRange a) (hb : T.InRange b)
    (hK : T.signed = true → K .gcdPrecond) :
    (T.gcd a b).Triple (fun r => T.InRange r ∧ r = Int.gcd a b) K := by
  refine Triple.intro (fun r w h => ?_) (fun k h => ?_)
  · obtain ⟨h1, h2, rfl, -⟩ := gcd_eq_ok.1 h
    refine ⟨?_, rfl⟩
    by_cases h0 : a = 0
    · subst h0; simpa using h2
    · refine h1.shrink (Or.inl ⟨Int.natCast_nonneg _, ?_⟩)
      exact_mod_cast Nat.le_of_dvd (Int.natAbs_pos.2 h0) (Nat.gcd_dvd_left _ _)
  · unfold IntTy.gcd at h
    split at h
    · cases h
    · rename_i h'; cases h
      refine hK ?_
      cases hs : T.signed
      · exact absurd ⟨natAbs_unsigned hs ha, natAbs_unsigned hs hb⟩ h'
      · rfl

theorem lcm_triple (a b : ℤ) (hK : K .lcmPrecond) :
    (T.lcm a b).Triple (fun r => T.InRange r ∧ r = Int.lcm a b) K := by
  refine Triple.intro (fun r w h => ?_) (fun k h => ?_)
  · obtain ⟨-, -, h1, rfl, -⟩ := lcm_eq_ok.1 h
    exact ⟨h1, rfl⟩
  · unfold IntTy.lcm at h
    split at h <;> cases h
    exact hK

/-- Reducing keeps defined fractions defined and does not make numerators zero. -/
theorem Raw.reduce_triple' {f : Raw} (mode : ReduceMode) (hf : f.InRange T)
    (ko : T.signed = true → K .overflow) (kg : T.signed = true → K .gcdPrecond) :
    (f.reduce T mode).Triple (fun g => g.InRange T ∧
      (f.den ≠ 0 → g.den ≠ 0 ∧ (g.num = 0 → f.num = 0))) K := by
  have h1 : (f.reduceIgnoreSigns T).Triple (fun g => g.InRange T ∧
      (f.den = 0 → g = ⟨0, 0⟩) ∧ (f.den ≠ 0 → g.den ≠ 0 ∧ (g.num = 0 → f.num = 0)))
      K := by
    unfold Raw.reduceIgnoreSigns
    by_cases h0 : f.den = 0
    · rw [if_pos (by simp [Raw.isUndefined, Raw.isDefined, h0])]
      exact Triple.pure ⟨⟨by simp, by simp⟩, fun _ => rfl, fun h => absurd h0 h⟩
    · rw [if_neg (by simp [Raw.isUndefined, Raw.isDefined, h0])]
      have hg : (Int.gcd f.num f.den : ℤ) ≠ 0 := by
        simp [Int.gcd_eq_zero_iff, h0]
      refine (gcd_triple hf.1 hf.2 kg).bind ?_
      rintro g ⟨hgr, rfl⟩
      refine (div_triple hf.1 hgr ko (fun h => absurd h hg)).bind ?_
      rintro n ⟨hn, -, rfl⟩
      refine (div_triple hf.2 hgr ko (fun h => absurd h hg)).bind ?_
      rintro d ⟨hd, -, rfl⟩
      refine Triple.pure ⟨⟨hn, hd⟩, fun h => absurd h h0, fun _ => ⟨?_, fun h => ?_⟩⟩
      · intro h
        exact h0 (Int.eq_zero_of_tdiv_eq_zero (Int.gcd_dvd_right f.num f.den) h)
      · exact Int.eq_zero_of_tdiv_eq_zero (Int.gcd_dvd_left f.num f.den) h
  cases mode with
  | ignoreSigns => exact h1.mono (fun g h => ⟨h.1, h.2.2⟩) (fun _ h => h)
  | normalizeSigns =>
    refine h1.bind ?_
    rintro g ⟨hg, hu, hd⟩
    unfold Raw.normalizeSigns
    split
    · exact Triple.pure ⟨hg, hd⟩
    · rename_i hden
      cases hs : T.signed
      · have h2 := hg.2.nonneg hs
        have h3 : g.den = 0 := by omega
        have h4 : f.den = 0 := by
          by_contra h; exact (hd h).1 h3
        rw [hu h4]
        refine (arith_triple _ (fun h => by rw [hs] at h; cases h)).bind ?_
        rintro n ⟨hn, -⟩
        refine (arith_triple _ (fun h => by rw [hs] at h; cases h)).bind ?_
        rintro d ⟨hd', -⟩
        exact Triple.pure ⟨⟨hn, hd'⟩, fun h => absurd h4 h⟩
      · refine (arith_triple _ ko).bind ?_
        rintro n ⟨hn, en⟩
        refine (arith_triple _ ko).bind ?_
        rintro d ⟨hd', ed⟩
        refine Triple.pure ⟨⟨hn, hd'⟩, fun h => ?_⟩
        obtain ⟨a, b⟩ := hd h
        have en := en hs
        have ed := ed hs
        dsimp only
        exact ⟨by omega, fun h => b (by omega)⟩

theorem Raw.reduce_triple {f : Raw} (mode : ReduceMode) (hf : f.InRange T) :
    (f.reduce T mode).Triple (fun g => g.InRange T ∧
      (f.den ≠ 0 → g.den ≠ 0 ∧ (g.num = 0 → f.num = 0))) (Fault.Arith T False) :=
  Raw.reduce_triple' mode hf (fun h => h) (fun h => h)

theorem Fault.Arith.mono {dz' : Prop} (h : dz → dz') {k : Fault} (hk : Fault.Arith T dz k) :
    Fault.Arith T dz' k := by
  cases k <;> first | exact h hk | exact hk

theorem Args.reduce_triple {a : Args} (mode : ReduceMode) (ha : a.InRange T) :
    (a.reduce T mode).Triple (fun b => b.InRange T ∧
      (a.Defined → b.Defined ∧ (b.ZeroRight → a.ZeroRight))) (Fault.Arith T False) := by
  cases a with
  | ff l r =>
    refine (Raw.reduce_triple mode ha.1).bind ?_
    rintro l' ⟨h1, h2⟩
    refine (Raw.reduce_triple mode ha.2).bind ?_
    rintro r' ⟨h3, h4⟩
    exact Triple.pure ⟨⟨h1, h3⟩, fun h => ⟨⟨(h2 h.1).1, (h4 h.2).1⟩, (h4 h.2).2⟩⟩
  | fr l n =>
    refine (Raw.reduce_triple mode ha.1).bind ?_
    rintro l' ⟨h1, h2⟩
    exact Triple.pure ⟨⟨h1, ha.2⟩, fun h => ⟨(h2 h).1, fun h => h⟩⟩
  | rf n r =>
    refine (Raw.reduce_triple mode ha.2).bind ?_
    rintro r' ⟨h3, h4⟩
    exact Triple.pure ⟨⟨ha.1, h3⟩, fun h => ⟨(h4 h).1, (h4 h).2⟩⟩

/-- The beginning of `safe`'s functions of two fractions: bring them over the least common
denominator. -/
theorem overCommon_triple {α : Type} {l r : Raw} {Q : α → Prop} {g : ℤ → ℤ → ℤ → Res α}
    (hl : l.InRange T) (hr : r.InRange T) (hd : l.den = 0 ∨ r.den = 0 → dz)
    (hg : ∀ D a b, T.InRange D → T.InRange a → T.InRange b →
      (T.signed = true → l.den ≠ 0 → r.den ≠ 0 → b = 0 → r.num = 0) →
      (g D a b).Triple Q (Fault.Arith T dz)) :
    (do
      let lcm ← T.lcm l.den r.den
      let ql ← T.div lcm l.den
      let a ← T.mul ql l.num
      let qr ← T.div lcm r.den
      let b ← T.mul qr r.num
      g lcm a b).Triple Q (Fault.Arith T dz) := by
  refine (lcm_triple _ _ trivial).bind ?_
  rintro D ⟨hD, eD⟩
  refine (div_triple hD hl.2 (fun hs => hs) (fun h => hd (Or.inl h))).bind ?_
  rintro ql ⟨-, -, -⟩
  refine (arith_triple _ (fun hs => hs)).bind ?_
  rintro a ⟨ha, -⟩
  refine (div_triple hD hr.2 (fun hs => hs) (fun h => hd (Or.inr h))).bind ?_
  rintro qr ⟨-, h0, eq⟩
  refine (arith_triple _ (fun hs => hs)).bind ?_
  rintro b ⟨hb, eb⟩
  refine hg D a b hD ha hb fun hs h1 h2 hb0 => ?_
  have eb := eb hs
  rw [hb0] at eb
  rcases mul_eq_zero.1 eb.symm with h | h
  · rw [eq, eD] at h
    have := Int.eq_zero_of_tdiv_eq_zero (by exact_mod_cast Int.dvd_lcm_right l.den r.den) h
    have h3 : Int.lcm l.den r.den = 0 := by exact_mod_cast this
    rw [Int.lcm_eq_zero_iff] at h3
    exact absurd h3 (by tauto)
  · exact h

/-- When a division by zero is possible. -/
def DivZero (T : IntTy) (op : ArithOp) (a : Args) : Prop :=
  T.signed = true → a.Defined → op = .modulus ∧ a.ZeroRight

theorem Safe.arith_faults {op : ArithOp} {a : Args} (ha : a.InRange T) :
    (Safe.arith T op a).Triple (fun _ => True) (Fault.Arith T (DivZero T op a)) := by
  cases a with
  | ff l r =>
    have hd : l.den = 0 ∨ r.den = 0 → DivZero T op (.ff l r) := fun h _ h' => by
      have := h'.1; have := h'.2; tauto
    cases op
    · refine overCommon_triple ha.1 ha.2 hd fun D a b hD _ _ _ => ?_
      exact (arith_triple _ (fun hs => hs)).bind fun _ _ => Triple.pure trivial
    · refine overCommon_triple ha.1 ha.2 hd fun D a b hD _ _ _ => ?_
      exact (arith_triple _ (fun hs => hs)).bind fun _ _ => Triple.pure trivial
    · refine (arith_triple _ (fun hs => hs)).bind fun _ _ => ?_
      exact (arith_triple _ (fun hs => hs)).bind fun _ _ => Triple.pure trivial
    · refine (arith_triple _ (fun hs => hs)).bind fun _ _ => ?_
      exact (arith_triple _ (fun hs => hs)).bind fun _ _ => Triple.pure trivial
    · refine overCommon_triple ha.1 ha.2 hd fun D a b hD h1 h2 h3 => ?_
      exact (mod_triple h1 h2 (fun hs => hs) (fun h hs hd => ⟨rfl, h3 hs hd.1 hd.2 h⟩)).bind
        fun _ _ => Triple.pure trivial
  | fr l n =>
    cases op
    · refine (arith_triple _ (fun hs => hs)).bind fun _ _ => ?_
      exact (arith_triple _ (fun hs => hs)).bind fun _ _ => Triple.pure trivial
    · refine (arith_triple _ (fun hs => hs)).bind fun _ _ => ?_
      exact (arith_triple _ (fun hs => hs)).bind fun _ _ => Triple.pure trivial
    · exact (arith_triple _ (fun hs => hs)).bind fun _ _ => Triple.pure trivial
    · exact (arith_triple _ (fun hs => hs)).bind fun _ _ => Triple.pure trivial
    · refine (arith_triple _ (fun hs => hs)).bind fun p hp => ?_
      refine (mod_triple ha.1.1 hp.1 (fun hs => hs) (fun h hs hd => ⟨rfl, ?_⟩)).bind
        fun _ _ => Triple.pure trivial
      have := hp.2 hs
      rw [h] at this
      exact (mul_eq_zero.1 this.symm).resolve_left hd
  | rf n r =>
    cases op
    · refine (arith_triple _ (fun hs => hs)).bind fun _ _ => ?_
      exact (arith_triple _ (fun hs => hs)).bind fun _ _ => Triple.pure trivial
    · refine (arith_triple _ (fun hs => hs)).bind fun _ _ => ?_
      exact (arith_triple _ (fun hs => hs)).bind fun _ _ => Triple.pure trivial
    · exact (arith_triple _ (fun hs => hs)).bind fun _ _ => Triple.pure trivial
    · exact (arith_triple _ (fun hs => hs)).bind fun _ _ => Triple.pure trivial
    · refine (arith_triple _ (fun hs => hs)).bind fun p hp => ?_
      exact (mod_triple hp.1 ha.2.1 (fun hs => hs) (fun h hs hd => ⟨rfl, h⟩)).bind
        fun _ _ => Triple.pure trivial

theorem Fast.arith_faults {op : ArithOp} {a : Args} (ha : a.InRange T) :
    (Fast.arith T op a).Triple (fun _ => True)
      (fun k => k = .overflow ∧ T.signed = true ∨
        k = .divByZero ∧ op = .modulus ∧ DivZero T op a) := by
  have hov : T.signed = true → (Fault.overflow = .overflow ∧ T.signed = true ∨
      Fault.overflow = .divByZero ∧ op = .modulus ∧ DivZero T op a) := fun hs => Or.inl ⟨rfl, hs⟩
  cases a with
  | ff l r =>
    cases op
    · refine (arith_triple _ hov).bind fun _ _ => ?_
      refine (arith_triple _ hov).bind fun _ _ => ?_
      refine (arith_triple _ hov).bind fun _ _ => ?_
      exact (arith_triple _ hov).bind fun _ _ => Triple.pure trivial
    · refine (arith_triple _ hov).bind fun _ _ => ?_
      refine (arith_triple _ hov).bind fun _ _ => ?_
      refine (arith_triple _ hov).bind fun _ _ => ?_
      exact (arith_triple _ hov).bind fun _ _ => Triple.pure trivial
    · refine (arith_triple _ hov).bind fun _ _ => ?_
      exact (arith_triple _ hov).bind fun _ _ => Triple.pure trivial
    · refine (arith_triple _ hov).bind fun _ _ => ?_
      exact (arith_triple _ hov).bind fun _ _ => Triple.pure trivial
    · refine (arith_triple _ hov).bind fun p hp => ?_
      refine (arith_triple _ hov).bind fun q hq => ?_
      refine (mod_triple hp.1 hq.1 hov (fun h => Or.inr ⟨rfl, rfl, fun hs hd => ⟨rfl, ?_⟩⟩)).bind
        fun _ _ => (arith_triple _ hov).bind fun _ _ => Triple.pure trivial
      have := hq.2 hs
      rw [h] at this
      exact (mul_eq_zero.1 this.symm).resolve_right hd.1
  | fr l n =>
    cases op
    · refine (arith_triple _ hov).bind fun _ _ => ?_
      exact (arith_triple _ hov).bind fun _ _ => Triple.pure trivial
    · refine (arith_triple _ hov).bind fun _ _ => ?_
      exact (arith_triple _ hov).bind fun _ _ => Triple.pure trivial
    · exact (arith_triple _ hov).bind fun _ _ => Triple.pure trivial
    · exact (arith_triple _ hov).bind fun _ _ => Triple.pure trivial
    · refine (arith_triple _ hov).bind fun p hp => ?_
      refine (mod_triple ha.1.1 hp.1 hov
        (fun h => Or.inr ⟨rfl, rfl, fun hs hd => ⟨rfl, ?_⟩⟩)).bind fun _ _ => Triple.pure trivial
      have := hp.2 hs
      rw [h] at this
      exact (mul_eq_zero.1 this.symm).resolve_right hd
  | rf n r =>
    cases op
    · refine (arith_triple _ hov).bind fun _ _ => ?_
      exact (arith_triple _ hov).bind fun _ _ => Triple.pure trivial
    · refine (arith_triple _ hov).bind fun _ _ => ?_
      exact (arith_triple _ hov).bind fun _ _ => Triple.pure trivial
    · exact (arith_triple _ hov).bind fun _ _ => Triple.pure trivial
    · exact (arith_triple _ hov).bind fun _ _ => Triple.pure trivial
    · refine (arith_triple _ hov).bind fun p hp => ?_
      exact (mod_triple hp.1 ha.2.1 hov
        (fun h => Or.inr ⟨rfl, rfl, fun hs hd => ⟨rfl, h⟩⟩)).bind fun _ _ => Triple.pure trivial

theorem Ops.arith_faults {o : Ops} {op : ArithOp} {a : Args} (ha : a.InRange T) :
    (o.arith T op a).Triple (fun r => r.InRange T) (Fault.Arith T (DivZero T op a)) := by
  suffices h : (o.arith T op a).Triple (fun _ => True) (Fault.Arith T (DivZero T op a)) from
    Triple.intro (fun r w h => Ops.arith_inRange ha h) (fun k e => h.fault e)
  induction o generalizing a with
  | safe => exact Safe.arith_faults ha
  | fast =>
    refine (Fast.arith_faults ha).mono (fun _ h => h) ?_
    rintro k (⟨rfl, h⟩ | ⟨rfl, -, h⟩)
    · exact h
    · exact h
  | reducedInput o mode ih =>
    refine ((Args.reduce_triple mode ha).mono (fun _ h => h)
      (fun k => Fault.Arith.mono False.elim)).bind ?_
    rintro b ⟨hb, hz⟩
    refine (ih hb).mono (fun _ h => h) (fun k => Fault.Arith.mono ?_)
    exact fun h hs hd => ⟨(h hs (hz hd).1).1, (hz hd).2 (h hs (hz hd).1).2⟩
  | reducedOutput o mode ih =>
    refine ((ih ha).and_post (P' := fun r => r.InRange T)
      (fun r w h => Ops.arith_inRange ha h)).bind ?_
    rintro r ⟨-, hr⟩
    exact (Raw.reduce_triple mode hr).mono (fun _ _ => trivial)
      (fun k => Fault.Arith.mono False.elim)

theorem Safe.cmp_faults {op : CmpOp} {a : Args} (ha : a.InRange T) :
    (Safe.cmp T op a).Triple (fun _ => True) (Fault.Arith T False) := by
  have key : ∀ {l r : Raw} {g : ℤ → ℤ → ℤ → Bool}, l.InRange T → r.InRange T →
      Triple (if l.isUndefined || r.isUndefined then pure false
        else do
          let lcm ← T.lcm l.den r.den
          let ql ← T.div lcm l.den
          let a ← T.mul ql l.num
          let qr ← T.div lcm r.den
          let b ← T.mul qr r.num
          return g lcm a b) (fun _ => True) (Fault.Arith T False) := by
    intro l r g hl hr
    split
    · exact Triple.pure trivial
    · rename_i h
      refine overCommon_triple hl hr (fun h' => ?_) fun _ _ _ _ _ _ _ => Triple.pure trivial
      simp only [Raw.isUndefined_iff, Bool.or_eq_true] at h
      exact h h'
  have step : ∀ {x : ℤ} {g : ℤ → Bool}, Triple (do
      let p ← T.arith x
      return g p) (fun _ => True) (Fault.Arith T False) := fun {x g} =>
    (arith_triple _ (fun hs => hs)).bind fun _ _ => Triple.pure trivial
  have not : ∀ {x : Res Bool}, x.Triple (fun _ => True) (Fault.Arith T False) →
      Triple (do
        let b ← x
        return !b) (fun _ => True) (Fault.Arith T False) := fun h =>
    h.bind fun _ _ => Triple.pure trivial
  cases a with
  | ff l r =>
    cases op
    · exact key (g := fun _ a b => decide (a = b)) ha.1 ha.2
    · exact not (key (g := fun _ a b => decide (a = b)) ha.1 ha.2)
    · exact key (g := fun _ a b => decide (a < b)) ha.1 ha.2
    · exact key (g := fun _ a b => decide (a ≤ b)) ha.1 ha.2
    · exact key (g := fun _ a b => decide (a < b)) ha.2 ha.1
    · exact key (g := fun _ a b => decide (a ≤ b)) ha.2 ha.1
  | fr l n => cases op <;> first | exact step | exact not step
  | rf n r => cases op <;> first | exact step | exact not step

theorem Fast.cmp_faults {op : CmpOp} {a : Args} :
    (Fast.cmp T op a).Triple (fun _ => True) (fun k => k = .overflow ∧ T.signed = true) := by
  have hov : T.signed = true → (Fault.overflow = .overflow ∧ T.signed = true) :=
    fun hs => ⟨rfl, hs⟩
  have key : ∀ {x y : ℤ} {g : ℤ → ℤ → Bool},
      Triple (do
          let a ← T.arith x
          let b ← T.arith y
          return g a b) (fun _ => True) (fun k => k = .overflow ∧ T.signed = true) := by
    intro x y g
    refine (arith_triple _ hov).bind fun _ _ => ?_
    exact (arith_triple _ hov).bind fun _ _ => Triple.pure trivial
  have step : ∀ {x : ℤ} {g : ℤ → Bool}, Triple (do
      let p ← T.arith x
      return g p) (fun _ => True) (fun k => k = .overflow ∧ T.signed = true) := fun {x g} =>
    (arith_triple _ hov).bind fun _ _ => Triple.pure trivial
  have not : ∀ {x : Res Bool},
      x.Triple (fun _ => True) (fun k => k = .overflow ∧ T.signed = true) →
      Triple (do
        let b ← x
        return !b) (fun _ => True) (fun k => k = .overflow ∧ T.signed = true) := fun h =>
    h.bind fun _ _ => Triple.pure trivial
  cases a with
  | ff l r =>
    cases op
    · exact key (g := fun a b => decide (a = b) && l.isDefined && r.isDefined)
    · exact not (key (g := fun a b => decide (a = b) && l.isDefined && r.isDefined))
    · exact key (g := fun a b => decide (a < b) && l.isDefined && r.isDefined)
    · exact key (g := fun a b => decide (a ≤ b) && l.isDefined && r.isDefined)
    · exact key (g := fun a b => decide (a < b) && r.isDefined && l.isDefined)
    · exact key (g := fun a b => decide (a ≤ b) && r.isDefined && l.isDefined)
  | fr l n => cases op <;> first | exact step | exact not step
  | rf n r => cases op <;> first | exact step | exact not step

theorem Ops.cmp_faults {o : Ops} {op : CmpOp} {a : Args} (ha : a.InRange T) :
    (o.cmp T op a).Triple (fun _ => True) (Fault.Arith T False) := by
  induction o generalizing a with
  | safe => exact Safe.cmp_faults ha
  | fast =>
    refine Fast.cmp_faults.mono (fun _ h => h) ?_
    rintro k ⟨rfl, h⟩
    exact h
  | reducedInput o mode ih =>
    refine (Args.reduce_triple mode ha).bind ?_
    rintro b ⟨hb, -⟩
    exact ih hb
  | reducedOutput o mode ih => exact ih ha

theorem Ops.negate_faults {o : Ops} {f : Raw} (hf : f.InRange T) :
    (o.negate T f).Triple (fun r => r.InRange T ∧ (T.signed = true → f.den ≠ 0 → r.den ≠ 0))
      (Fault.Arith T False) := by
  induction o generalizing f with
  | safe =>
    refine (arith_triple _ (fun hs => hs)).bind fun n hn => ?_
    exact Triple.pure ⟨⟨hn.1, hf.2⟩, fun _ h => h⟩
  | fast =>
    refine (arith_triple _ (fun hs => hs)).bind fun n hn => ?_
    exact Triple.pure ⟨⟨hn.1, hf.2⟩, fun _ h => h⟩
  | reducedInput o mode ih =>
    refine (Raw.reduce_triple _ hf).bind ?_
    rintro g ⟨hg, h⟩
    exact (ih hg).mono (fun r hr => ⟨hr.1, fun hs h0 => hr.2 hs (h h0).1⟩) (fun _ h => h)
  | reducedOutput o mode ih =>
    refine (ih hf).bind ?_
    rintro g ⟨hg, h⟩
    exact (Raw.reduce_triple _ hg).mono
      (fun r hr => ⟨hr.1, fun hs h0 => (hr.2 (h hs h0)).1⟩) (fun _ h => h)

/-- Arithmetic keeps results defined. -/
theorem Ops.arith_triple {o : Ops} {op : ArithOp} {a : Args} (ha : a.InRange T) :
    (o.arith T op a).Triple
      (fun r => r.InRange T ∧ (T.signed = true → a.Defined → (op = .divides → ¬ a.ZeroRight) →
        r.den ≠ 0)) (Fault.Arith T (DivZero T op a)) := by
  refine (Ops.arith_faults ha).and_post fun r w h hs hd hz => ?_
  have hw := (Ops.arith_noWrap hs o op a).flag h
  subst hw
  have den : ∀ {f : Raw}, f.den ≠ 0 → Denotes f ((f.num : ℚ) / f.den) := fun h => ⟨h, rfl⟩
  obtain ⟨x, y, hxy, hy⟩ : ∃ x y, a.Denote x y ∧ (y = 0 → a.ZeroRight) := by
    cases a with
    | ff l r =>
      refine ⟨_, _, ⟨den hd.1, den hd.2⟩, fun h => ?_⟩
      have : (r.den : ℚ) ≠ 0 := by exact_mod_cast hd.2
      simpa [this, Args.ZeroRight] using h
    | fr l n => exact ⟨_, _, ⟨den hd, rfl⟩, fun h => by simpa [Args.ZeroRight] using h⟩
    | rf n r =>
      refine ⟨_, _, ⟨rfl, den hd⟩, fun h => ?_⟩
      have : (r.den : ℚ) ≠ 0 := by exact_mod_cast hd
      simpa [this, Args.ZeroRight] using h
  have := Ops.arith_exact hxy h
  cases op with
  | plus => exact this.1
  | minus => exact this.1
  | multiplies => exact this.1
  | divides => exact (this.1 fun h => hz rfl (hy h)).1
  | modulus => exact this.2.1

end Ieme
