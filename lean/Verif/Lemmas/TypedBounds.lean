import Verif.Lemmas.ProgramBounds
import Verif.Lemmas.MixedProgress
import Verif.Lemmas.NarrowMore
import Verif.Lemmas.TypedSign
import Verif.Spec.TypedBounds

/-!
# The static check of a program with variables of different types bounds its run
-/

namespace Ieme

open Res IntTy

variable {T L R : IntTy} {o : Ops}

theorem trunc_le {q : ℚ} {n : ℕ} (h : |q| < n + 1) : (ratTrunc q).natAbs ≤ n := by
  rw [abs_lt] at h
  have key : -(n : ℤ) ≤ ratTrunc q ∧ ratTrunc q ≤ n := by
    unfold ratTrunc
    split
    · have h0 : (0 : ℤ) ≤ ⌊q⌋ := Int.floor_nonneg.2 ‹_›
      refine ⟨by omega, Int.lt_add_one_iff.1 (Int.floor_lt.2 (by push_cast; linarith))⟩
    · have h0 : ⌈q⌉ ≤ (0 : ℤ) := Int.ceil_le.2 (by push_cast; linarith)
      refine ⟨?_, by omega⟩
      have : (-(n : ℤ) - 1) < ⌈q⌉ := Int.lt_ceil.2 (by push_cast; linarith)
      omega
  omega

theorem Mixed.Invariant.num_le {k : Mixed} (h : k.Invariant) :
    k.frac.num.natAbs ≤ k.frac.den.natAbs := by
  obtain ⟨y, hy, h1, -⟩ := h
  have e := absLe_num hy
  have h2 : (0 : ℚ) ≤ k.frac.den.natAbs := by positivity
  have : (k.frac.num.natAbs : ℚ) ≤ k.frac.den.natAbs := by rw [e]; nlinarith
  exact_mod_cast this

theorem Mixed.abs_lt {k : Mixed} {q : ℚ} {n : ℕ} (h : k.Invariant) (hq : k.Denotes q)
    (hn : k.whole.natAbs ≤ n) : |q| < n + 1 := by
  obtain ⟨y, hy, h1, -⟩ := h
  obtain ⟨y', hy', rfl⟩ := hq
  obtain rfl := hy.unique hy'
  have h2 : |(k.whole : ℚ)| ≤ n := by
    rw [← Int.cast_abs, Int.abs_eq_natAbs]; exact_mod_cast hn
  exact (abs_add_le _ _).trans_lt (by linarith)

/-- The constructor from both parts finishes, with parts that the value bounds. -/
theorem Mixed.mk_size {W F : IntTy} {w : ℤ} {f : Raw} {x : ℚ} {K n d : ℕ} (hs : F.signed = true)
    (hK : (K : ℤ) ≤ F.max) (hf : f.AbsLe K) (hx : Ieme.Denotes f x) (hw : W.InRange w)
    (ht : W.InRange (ratTrunc x)) (hwt : W.InRange (w + ratTrunc x)) (hq : |w + x| < (n : ℚ) + 1)
    (hd : f.den.natAbs ≤ d) :
    ∃ k, Mixed.mk' W F o w f ⇓ k ∧ k.whole.natAbs ≤ n ∧ k.frac.num.natAbs ≤ d ∧
      k.frac.den.natAbs ≤ d := by
  obtain ⟨k, hk, -, h2⟩ := Mixed.mk_progress (o := o) hs hK hf hx hw ht hwt
  obtain ⟨-, hi, -, hv⟩ := Mixed.mk_ok hw (.inr rfl) hk
  refine ⟨k, hk, ?_, hi.num_le.trans (h2.trans hd), h2.trans hd⟩
  rw [Overload.whole_eq hi (hv rfl x hx)]
  exact trunc_le hq

/-- Comparisons within the static bounds finish, with integers too. -/
theorem Ops.cmp_fits {op : CmpOp} {a : Args} {A B : Bound} {x y : ℚ} (ha : a.Denote x y)
    (hf : a.FitB T A B) (hA : A.Le T.max) (hB : B.Le T.max) (hc : A.Comparable B T.max) :
    ∃ b, o.cmp T op a ⇓ b := by
  by_cases hff : ∃ l r, a = .ff l r
  · obtain ⟨l, r, rfl⟩ := hff
    exact Ops.cmp_fitB hf.1 hf.2 hA hB hc ha.1.1 ha.2.1
  simp only [not_exists] at hff
  have fast : ∀ {a : Args}, a.Denote x y → a.FitB T A B → ∃ b, Ops.fast.cmp T op a ⇓ b := by
    intro a ha hf
    have hs := ha.sides
    have hu : ¬ a.HasUndefined := by
      cases a with
      | ff l r => simp [Args.HasUndefined, ha.1.1, ha.2.1]
      | fr l r => simp [Args.HasUndefined, ha.1.1]
      | rf l r => simp [Args.HasUndefined, ha.2.1]
    by_cases h : op.HoldsInt (a.left.num * a.right.den) (a.right.num * a.left.den)
    · exact ⟨true, (C85_fast_cmp_iff (hf.inRange hA hB)).2 ⟨(hf.1.1.mul hf.2.2).inRange hc.1,
        (hf.2.1.mul hf.1.2).inRange hc.2.1, fun h => absurd h hu, fun _ => by simp [h]⟩⟩
    · exact ⟨false, (C85_fast_cmp_iff (hf.inRange hA hB)).2 ⟨(hf.1.1.mul hf.2.2).inRange hc.1,
        (hf.2.1.mul hf.1.2).inRange hc.2.1, fun h => absurd h hu, fun _ => by simp [h]⟩⟩
  induction o generalizing a with
  | safe => rw [C85_safe_cmp_eq_fast hff]; exact fast ha hf
  | fast => exact fast ha hf
  | reducedInput o mode ih =>
    obtain ⟨a', ha', fa'⟩ := hf.reduce hA hB mode
    obtain ⟨b, hb⟩ := ih (Args.reduce_denote ha ha') fa' (by
      intro l r e
      subst e
      cases a with
      | ff l r => exact hff _ _ rfl
      | fr l r => simp only [Args.reduce, bind_eq_clean, pure_eq_ok, reduceCtorEq, false_and,
          and_false, exists_false] at ha'
      | rf l r => simp only [Args.reduce, bind_eq_clean, pure_eq_ok, reduceCtorEq, false_and,
          and_false, exists_false] at ha')
    exact ⟨b, by simp only [Ops.cmp, ha', ok_bind_false, hb]⟩
  | reducedOutput o mode ih => exact ih ha hf hff

end Ieme

namespace Ieme.Overload

open Res IntTy

variable {Γ : Decls} {m m' : Vars} {s s' : ℕ → ℚ} {e : VExpr} {t l r : Ty} {q x y p : ℚ}
  {u v w : Val} {a b c : Size} {T L R W F : IntTy} {o : Ops} {n : ℤ} {k : ℕ} {neg : Bool}

/-! ### Parts -/

theorem Part.fit (h : Part k neg n) (hs : neg = true → T.signed = true) : Fit T k n :=
  ⟨h.1, fun e => h.2 (by cases neg; rfl; simp [hs rfl] at e)⟩

theorem Part.inRange (h : Part k neg n) (hr : Room T k neg) : T.InRange n := (h.fit hr.2).inRange hr.1

theorem part_true : Part k true n ↔ n.natAbs ≤ k := by simp [Part]

theorem Part.fitB {A : Bound} {f : Raw} (h1 : Part A.num neg f.num) (h2 : Part A.den neg f.den)
    (hs : neg = true → T.signed = true) : f.FitB T A := ⟨h1.fit hs, h2.fit hs⟩

theorem Part.mono {neg' : Bool} (h : Part k neg n) (hn : neg = true → neg' = true) :
    Part k neg' n := ⟨h.1, fun e => h.2 (by cases neg; rfl; simp [hn rfl] at e)⟩

theorem part_one : Part 1 neg 1 := ⟨le_rfl, fun _ => by omega⟩

/-- No part is negative. -/
def Val.Nonneg : Val → Prop
  | .int n => 0 ≤ n
  | .frac f => 0 ≤ f.num ∧ 0 ≤ f.den
  | .mixed k => 0 ≤ k.whole ∧ 0 ≤ k.frac.num ∧ 0 ≤ k.frac.den
  | .lit n => 0 ≤ n

theorem raw_nonneg {f : Raw} (hx : Ieme.Denotes f x) (hn : 0 ≤ f.num) (hd : 0 ≤ f.den) :
    0 ≤ x ∧ 0 < f.den := by
  have hd' : 0 < f.den := lt_of_le_of_ne hd (Ne.symm hx.1)
  refine ⟨?_, hd'⟩
  rw [← hx.2]
  have h1 : (0 : ℚ) ≤ f.num := by exact_mod_cast hn
  have h2 : (0 : ℚ) < f.den := by exact_mod_cast hd'
  positivity

theorem num_nonneg {f : Raw} (hx : Ieme.Denotes f x) (h0 : 0 ≤ x) (hd : 0 < f.den) : 0 ≤ f.num := by
  have h2 : (0 : ℚ) < f.den := by exact_mod_cast hd
  have h3 : (f.num : ℚ) = x * f.den := by rw [← hx.2]; field_simp
  have : (0 : ℚ) ≤ f.num := by rw [h3]; positivity
  exact_mod_cast this

theorem Val.Nonneg.facts (h : v.Nonneg) (hx : v.Denotes x) : 0 ≤ x ∧ v.Upright := by
  cases v with
  | int n => cases hx; exact ⟨by exact_mod_cast h, trivial⟩
  | frac f => exact raw_nonneg hx h.1 h.2
  | mixed k =>
    obtain ⟨y, hy, rfl⟩ := hx
    obtain ⟨h1, h2⟩ := raw_nonneg hy h.2.1 h.2.2
    have h3 : (0 : ℚ) ≤ k.whole := by exact_mod_cast h.1
    exact ⟨by positivity, h2⟩
  | lit n => cases hx; exact ⟨by exact_mod_cast h, trivial⟩

theorem nonneg_of (hx : v.Denotes x ∧ v.Proper) (hu : v.Upright) (h0 : 0 ≤ x) : v.Nonneg := by
  obtain ⟨hx, hp⟩ := hx
  cases v with
  | int n => cases hx; exact_mod_cast h0
  | frac f => exact ⟨num_nonneg hx h0 hu, hu.le⟩
  | mixed k =>
    obtain ⟨y, hy, rfl⟩ := hx
    obtain ⟨y', hy', h1, h2, h3⟩ := hp
    obtain rfl := hy.unique hy'
    have hw : 0 ≤ k.whole := by
      by_contra hc
      have hc : k.whole < 0 := by omega
      have h4 := h3 hc
      have h5 : (k.whole : ℚ) < 0 := by exact_mod_cast hc
      linarith
    have hy0 : 0 ≤ y := by
      rcases hw.lt_or_eq with h | h
      · exact h2 h
      · rw [← h] at h0; simpa using h0
    exact ⟨hw, num_nonneg hy hy0 hu, hu.le⟩
  | lit n => cases hx; exact_mod_cast h0

/-- The magnitudes alone. -/
def Size.Spans (a : Size) (t : Ty) (v : Val) : Prop := ({ a with neg := true } : Size).Admits t v

theorem Size.Admits.nonneg (h : a.Admits t v) (hn : a.neg = false) : v.Nonneg := by
  cases t <;> cases v <;>
    first
    | exact h.elim
    | exact h.2 hn
    | exact ⟨h.1.2 hn, h.2.2 hn⟩
    | exact ⟨h.1.2 hn, h.2.1.2 hn, h.2.2.2 hn⟩

theorem Size.Spans.admits (h : a.Spans t v) (hn : a.neg = false → v.Nonneg) : a.Admits t v := by
  cases t <;> cases v <;>
    first
    | exact h.elim
    | exact ⟨h.1, fun e => hn e⟩
    | exact ⟨⟨h.1.1, fun e => (hn e).1⟩, h.2.1, fun e => (hn e).2⟩
    | exact ⟨⟨h.1.1, fun e => (hn e).1⟩, ⟨h.2.1.1, fun e => (hn e).2.1⟩, h.2.2.1, fun e => (hn e).2.2⟩

/-! ### Operators -/

theorem negate_size (hc : a.negate t = some c) (ha : a.Admits t u) (hx : u.Denotes x ∧ u.Proper) :
    ∃ w, negate t u ⇓ w ∧ c.Admits t.neg w := by
  cases t with
  | int T =>
    cases u <;> try exact ha.elim
    simp only [Size.negate] at hc
    split_ifs at hc with h
    cases hc
    have f := (Part.fit (T := T) (Part.mono (neg' := true) ha fun _ => rfl) h.2).neg (h.2 rfl)
    exact ⟨.int _, by simp only [negate, neg_of_inRange (f.inRange h.1), ok_bind_false, pure_def],
      part_true.2 f.1⟩
  | frac T o =>
    cases u <;> try exact ha.elim
    simp only [Size.negate] at hc
    split_ifs at hc with h
    cases hc
    obtain ⟨r, hr, f⟩ := Ops.negate_fitB (o := o) (T := T) (A := ⟨a.num, a.den⟩) (h.1.2 rfl)
      (Part.fitB (neg := true) (ha.1.mono fun _ => rfl) (ha.2.mono fun _ => rfl) h.1.2)
      ⟨h.1.1, h.2.1⟩
    exact ⟨.frac r, by simp only [negate, Fraction.neg, hr, ok_bind_false, pure_def],
      part_true.2 f.1.1, part_true.2 f.2.1⟩
  | mixed W F o =>
    cases u with
    | mixed k =>
      simp only [Size.negate] at hc
      split_ifs at hc with h
      cases hc
      obtain ⟨y, hy, h1, h2, h3⟩ := hx.2
      have f := (Part.fit (T := W) (Part.mono (neg' := true) ha.1 fun _ => rfl) h.1.2).neg (h.1.2 rfl)
      have hn : k.frac.num.natAbs ≤ a.den := (Mixed.Invariant.num_le hx.2).trans ha.2.2.1
      obtain ⟨g, hg, fg⟩ := Ops.negate_fitB (o := o) (T := F) (v := k.frac) (A := ⟨a.den, a.den⟩)
        (h.2.2 rfl) (Part.fitB (neg := true) (part_true.2 hn) (ha.2.2.mono fun _ => rfl) h.2.2)
        ⟨h.2.1, h.2.1⟩
      have hg' : Ieme.Denotes g (-y) := Ops.negate_exact hy hg
      have ht : ratTrunc (-y) = 0 := Narrow.Mixed.ratTrunc_proper (by rwa [abs_neg])
      have h0 : W.InRange 0 := ⟨W.min_le_zero, by have := W.max_ge; omega⟩
      have hq := Mixed.abs_lt hx.2 hx.1 ha.1.1
      obtain ⟨y', hy', rfl⟩ := hx.1
      obtain rfl := hy.unique hy'
      obtain ⟨k', hk, s1, s2, s3⟩ := Mixed.mk_size (o := o) (W := W) (w := -k.whole) (n := a.whole)
        (d := a.den) (h.2.2 rfl) h.2.1 ⟨fg.1.1, fg.2.1⟩ hg' (f.inRange h.1.1) (ht ▸ h0)
        (by rw [ht, add_zero]; exact f.inRange h.1.1)
        (by rw [← abs_neg]; push_cast; rwa [neg_add, neg_neg, neg_neg]) fg.2.1
      refine ⟨.mixed k', ?_, part_true.2 s1, part_true.2 s2, part_true.2 s3⟩
      simp only [negate, Mixed.neg, neg_of_inRange (f.inRange h.1.1), Fraction.neg, hg, hk,
        ok_bind_false, pure_def]
    | _ => exact ha.elim
  | lit s o =>
    cases u with
    | lit n =>
      simp only [Size.negate] at hc
      split_ifs at hc with h
      cases hc
      have g : Fit i64 a.whole n := Part.fit (Part.mono (neg' := true) ha fun _ => rfl) h.2
      have f := g.neg (h.2 rfl)
      refine ⟨.lit (-n), ?_, part_true.2 f.1⟩
      simp only [negate, DenLit.neg, conv_clean.2 ⟨g.inRange h.1, rfl⟩,
        neg_of_inRange (f.inRange h.1), ok_bind_false, pure_def]
    | _ => exact ha.elim

theorem builtin_size {A B : IntTy} {op : ArithOp} {i j : ℤ} {m n : ℕ}
    (hc : Size.builtin op (IntTy.common A B) m n neg = some c) (hi : Part m neg i) (hj : Part n neg j)
    (hm : op = .minus → neg = true) (hq : binValue op (.int A) (.int B) i j = some q) :
    c.neg = neg ∧ ∃ k, builtin A B op i j ⇓ k ∧ k.natAbs ≤ c.whole := by
  simp only [Size.builtin] at hc
  split_ifs at hc with h
  cases hc
  obtain ⟨r1, r2, r3⟩ := h
  have fi := hi.fit r1.2
  have fj := hj.fit r2.2
  refine ⟨rfl, ?_⟩
  simp only [builtin, conv_clean.2 ⟨fi.inRange r1.1, rfl⟩, conv_clean.2 ⟨fj.inRange r2.1, rfl⟩,
    ok_bind_false]
  have j0 : op = .divides ∨ op = .modulus → j ≠ 0 := by
    rintro (rfl | rfl) rfl <;> simp [binValue, ArithOp.value] at hq
  cases op with
  | plus => exact ⟨_, add_of_inRange ((fi.add fj).inRange r3.1), (fi.add fj).1⟩
  | minus =>
    have f := fi.sub (r1.2 (hm rfl)) fj
    exact ⟨_, sub_of_inRange (f.inRange r3.1), f.1⟩
  | multiplies => exact ⟨_, mul_of_inRange ((fi.mul fj).inRange r3.1), (fi.mul fj).1⟩
  | divides => exact ⟨_, div_of (j0 (.inl rfl)) ((fi.tdiv fj).inRange r3.1), (fi.tdiv fj).1⟩
  | modulus => exact ⟨_, mod_of (j0 (.inr rfl)) ((fi.tdiv fj).inRange r3.1), (fi.tmod j).1⟩

theorem arith_size {op : ArithOp} {d : Args} {A B : Bound}
    (hc : Size.arith op (IntTy.common L R) A B neg = some c)
    (hf : (neg = true → (IntTy.common L R).signed = true) → d.FitB (IntTy.common L R) A B)
    (hd : d.Denote x y) (hm : op = .minus → neg = true) (hq : op.value x y = some q) :
    c.neg = neg ∧ ∃ f, Fraction.arith L R o op d ⇓ f ∧ f.num.natAbs ≤ c.num ∧
      f.den.natAbs ≤ c.den := by
  simp only [Size.arith] at hc
  split_ifs at hc with h
  cases hc
  obtain ⟨hA, hB, hop, hs⟩ := h
  obtain ⟨f, h1, h2⟩ := Ops.arith_fitB (o := o) hd (hf hs) hA hB hop
    (allowed_of_value (fun e => hs (hm e)) hq)
  refine ⟨rfl, f, ?_, h2.1.1, h2.2.1⟩
  simp only [Fraction.arith, Fraction.toCommon_of_inRange ((hf hs).inRange hA hB), ok_bind_false, h1]

/-- The same within one representation. -/
theorem arith_size_self {op : ArithOp} {d : Args} {A B : Bound}
    (hc : Size.arith op T A B neg = some c)
    (hf : (neg = true → T.signed = true) → d.FitB T A B)
    (hd : d.Denote x y) (hm : op = .minus → neg = true) (hq : op.value x y = some q) :
    c.neg = neg ∧ ∃ f, Fraction.arith T T o op d ⇓ f ∧ f.num.natAbs ≤ c.num ∧
      f.den.natAbs ≤ c.den := by
  have e := IntTy.common_self T
  exact arith_size (L := T) (R := T) (by rw [e]; exact hc) (by rw [e]; exact hf) hd hm hq

theorem arith_room {op : ArithOp} {A B : Bound} (hc : Size.arith op T A B neg = some c) :
    A.Le T.max ∧ B.Le T.max ∧ (neg = true → T.signed = true) := by
  simp only [Size.arith] at hc
  split_ifs at hc with h
  exact ⟨h.1, h.2.1, h.2.2.2⟩

/-- The parts of a fraction within a size. -/
theorem Size.Admits.fitB (h : a.Admits (.frac L o) (.frac f)) (hs : neg = true → T.signed = true)
    (hn : a.neg = true → neg = true) : f.FitB T a.frac :=
  Part.fitB (neg := neg) (h.1.mono hn) (h.2.mono hn) hs

/-- An integer within a size as a fraction. -/
theorem Part.fitB_one (h : Part a.whole a.neg n) (hs : neg = true → T.signed = true)
    (hn : a.neg = true → neg = true) : Raw.FitB T a.over ⟨n, 1⟩ :=
  Part.fitB (neg := neg) (A := a.over) (h.mono hn) part_one hs

theorem inRange_zero (W : IntTy) : W.InRange 0 := ⟨W.min_le_zero, by have := W.max_ge; omega⟩

/-- The sum of two mixed numbers. -/
theorem sum_size {W' F' : IntTy} {i j : Mixed} {w d w' d' : ℕ}
    (hc : Size.sum (IntTy.common W W') (IntTy.common F F') w d w' d' neg = some c)
    (hi : i.Invariant) (hj : j.Invariant) (wi : Part w neg i.whole) (di : i.frac.den.natAbs ≤ d)
    (wj : Part w' neg j.whole) (dj : j.frac.den.natAbs ≤ d') (hx : i.Denotes x) (hy : j.Denotes y)
    (si : neg = false → (Val.mixed i).Nonneg) (sj : neg = false → (Val.mixed j).Nonneg) :
    c.neg = neg ∧ ∃ k, Mixed.add W F W' F' o i j ⇓ k ∧ k.whole.natAbs ≤ c.whole ∧
      k.frac.num.natAbs ≤ c.num ∧ k.frac.den.natAbs ≤ c.den := by
  simp only [Size.sum] at hc
  split_ifs at hc with h
  cases hc
  obtain ⟨hW, hF⟩ := h
  refine ⟨rfl, ?_⟩
  have ni := hi.num_le
  have nj := hj.num_le
  have ai := Mixed.abs_lt hi hx wi.1
  have aj := Mixed.abs_lt hj hy wj.1
  obtain ⟨y1, hy1, b1, -⟩ := hi
  obtain ⟨y2, hy2, b2, -⟩ := hj
  obtain ⟨y1', hy1', rfl⟩ := hx
  obtain ⟨y2', hy2', rfl⟩ := hy
  obtain rfl := hy1.unique hy1'
  obtain rfl := hy2.unique hy2'
  have d1 : 1 ≤ d := by have := Int.natAbs_pos.2 hy1.1; omega
  have d2 : 1 ≤ d' := by have := Int.natAbs_pos.2 hy2.1; omega
  have e1 : d ≤ d * d' := Nat.le_mul_of_pos_right d d2
  have e2 : d' ≤ d * d' := Nat.le_mul_of_pos_left d' d1
  have hFm := hF.1
  push_cast at hFm
  have hWm := hW.1
  push_cast at hWm
  have le1 : (d : ℤ) ≤ (d : ℤ) * d' := by exact_mod_cast e1
  have le2 : (d' : ℤ) ≤ (d : ℤ) * d' := by exact_mod_cast e2
  have hsF := hF.2 rfl
  have f1 : i.frac.FitB (IntTy.common F F') ⟨d, d⟩ :=
    Part.fitB (neg := true) (part_true.2 (ni.trans di)) (part_true.2 di) hF.2
  have f2 : j.frac.FitB (IntTy.common F F') ⟨d', d'⟩ :=
    Part.fitB (neg := true) (part_true.2 (nj.trans dj)) (part_true.2 dj) hF.2
  have L1 : (⟨d, d⟩ : Bound).Le (IntTy.common F F').max := ⟨by show (d : ℤ) ≤ _; omega, by show (d : ℤ) ≤ _; omega⟩
  have L2 : (⟨d', d'⟩ : Bound).Le (IntTy.common F F').max := ⟨by show (d' : ℤ) ≤ _; omega, by show (d' : ℤ) ≤ _; omega⟩
  obtain ⟨g, hg, fg⟩ := Ops.arith_fitB (o := o) (op := .plus) (a := .ff i.frac j.frac) ⟨hy1, hy2⟩
    ⟨f1, f2⟩ L1 L2 ⟨⟨by simp only [ArithOp.bound]; push_cast; linarith,
      by simp only [ArithOp.bound]; push_cast; linarith⟩, by simp⟩ trivial
  have dg : Ieme.Denotes g (y1 + y2) := Ops.arith_exact (a := .ff _ _) ⟨hy1, hy2⟩ hg
  have fi := wi.fit hW.2
  have fj := wj.fit hW.2
  have hsum : |y1 + y2| < 2 := (abs_add_le _ _).trans_lt (by linarith)
  have ht : (ratTrunc (y1 + y2)).natAbs ≤ 1 := trunc_le (by push_cast; linarith)
  have hw : (IntTy.common W W').InRange (i.whole + j.whole) := (fi.add fj).inRange (by push_cast; omega)
  have hq : |((i.whole + j.whole : ℤ) : ℚ) + (y1 + y2)| < ((w + w' + 1 : ℕ) : ℚ) + 1 := by
    refine lt_of_le_of_lt (le_of_eq ?_) ((abs_add_le _ _).trans_lt (add_lt_add ai aj)) |>.trans_le ?_
    · congr 1; push_cast; ring
    · push_cast; linarith
  have tp : Part 1 neg (ratTrunc (y1 + y2)) := by
    refine ⟨ht, fun e => ?_⟩
    have p1 := (raw_nonneg hy1 (si e).2.1 (si e).2.2).1
    have p2 := (raw_nonneg hy2 (sj e).2.1 (sj e).2.2).1
    unfold ratTrunc
    rw [if_pos (by linarith)]
    exact Int.floor_nonneg.2 (by linarith)
  have ft := tp.fit hW.2
  obtain ⟨k, hk, s1, s2, s3⟩ := Mixed.mk_size (o := o) (W := IntTy.common W W')
    (K := 2 * (d * d')) (n := w + w' + 1) (d := d * d') hsF hF.1
    ⟨fg.1.1.trans (le_of_eq (by simp only [ArithOp.bound]; ring)),
      fg.2.1.trans (by simp only [ArithOp.bound]; omega)⟩ dg hw
    (ft.inRange (by push_cast; omega))
    (((fi.add fj).add ft).inRange (by push_cast; omega)) hq fg.2.1
  refine ⟨k, ?_, s1, s2, s3⟩
  have c1 : (IntTy.common W W').conv i.whole ⇓ i.whole :=
    conv_clean.2 ⟨fi.inRange (by omega), rfl⟩
  have c2 : (IntTy.common W W').conv j.whole ⇓ j.whole :=
    conv_clean.2 ⟨fj.inRange (by omega), rfl⟩
  have c3 : Fraction.ofOther (IntTy.common F F') i.frac ⇓ i.frac :=
    Raw.conv_clean.2 ⟨f1.inRange L1, rfl⟩
  have c4 : Fraction.ofOther (IntTy.common F F') j.frac ⇓ j.frac :=
    Raw.conv_clean.2 ⟨f2.inRange L2, rfl⟩
  simp only [Mixed.add, c1, c2, c3, c4, add_of_inRange hw, Fraction.arith_self, hg, hk, ok_bind_false]

/-- A fraction as a mixed number. -/
theorem ofFraction_size {S : IntTy} {f : Raw} {A : Bound} (hn : f.num.natAbs ≤ A.num)
    (hd : f.den.natAbs ≤ A.den) (hx : Ieme.Denotes f x) (s1 : Room S A.num true)
    (s2 : Room S A.den true) (f1 : Room F A.num true) (f2 : Room F A.den true)
    (hw : W.InRange (ratTrunc x)) :
    ∃ k, Mixed.ofFraction W F o S f ⇓ k ∧ k.whole.natAbs ≤ A.num ∧ k.frac.num.natAbs ≤ A.den ∧
      k.frac.den.natAbs ≤ A.den := by
  have hK : ((max A.num A.den : ℕ) : ℤ) ≤ S.max := by
    have := s1.1; have := s2.1; push_cast; omega
  have hK' : ((max A.num A.den : ℕ) : ℤ) ≤ F.max := by
    have := f1.1; have := f2.1; push_cast; omega
  obtain ⟨k, hk, h1, -, h3⟩ := Mixed.ofFraction_progress (o := o) (W := W) (F := F) (S := S)
    (s1.2 rfl) hK ⟨hn.trans (le_max_left _ _), hd.trans (le_max_right _ _)⟩ hx (f1.2 rfl) hK' hw
  obtain ⟨-, hi, -, -⟩ := Mixed.ofFraction_ok hk
  refine ⟨k, hk, ?_, hi.num_le.trans (h3.trans hd), h3.trans hd⟩
  rw [h1, ← hx.2, ratTrunc_div]
  exact (Int.natAbs_tdiv_le_natAbs _ _).trans hn

theorem trunc_num_le {f : Raw} (hx : Ieme.Denotes f x) : (ratTrunc x).natAbs ≤ f.num.natAbs := by
  rw [← hx.2, ratTrunc_div]
  exact Int.natAbs_tdiv_le_natAbs _ _

theorem trunc_nonneg (h : 0 ≤ x) : 0 ≤ ratTrunc x := by
  unfold ratTrunc
  rw [if_pos h]
  exact Int.floor_nonneg.2 h

/-- Adding a fraction to a mixed number. -/
theorem addFraction_size {i : Mixed} {f : Raw} {w d : ℕ} {A : Bound}
    (hc : Size.sum (IntTy.common W R) (IntTy.common F R) w d A.num A.den neg = some c)
    (r1 : Room R A.num true) (r2 : Room R A.den true)
    (hi : i.Invariant) (wi : Part w neg i.whole) (di : i.frac.den.natAbs ≤ d)
    (hn : f.num.natAbs ≤ A.num) (hd : f.den.natAbs ≤ A.den) (hx : i.Denotes x)
    (hy : Ieme.Denotes f y)
    (si : neg = false → (Val.mixed i).Nonneg) (sj : neg = false → (Val.frac f).Nonneg) :
    c.neg = neg ∧ ∃ k, Mixed.addFraction W F R o i f ⇓ k ∧ k.whole.natAbs ≤ c.whole ∧
      k.frac.num.natAbs ≤ c.num ∧ k.frac.den.natAbs ≤ c.den := by
  have ht : R.InRange (ratTrunc y) :=
    Part.inRange (neg := true) (part_true.2 ((trunc_num_le hy).trans hn)) r1
  obtain ⟨k, hk, h1, -, h3⟩ := ofFraction_size (o := o) hn hd hy r1 r2 r1 r2 ht
  obtain ⟨-, hj, -, hv⟩ := Mixed.ofFraction_ok hk
  have sk : neg = false → (Val.mixed k).Nonneg := fun e =>
    have ⟨p1, p2⟩ := (sj e).facts hy
    nonneg_of (v := .mixed k) ⟨hv _ hy, hj⟩ (ofFraction_upright p2 hk) p1
  obtain ⟨hc', k', hk', h⟩ := sum_size (o := o) hc hi hj wi di ⟨h1, fun e => (sk e).1⟩ h3 hx (hv _ hy)
    si sk
  exact ⟨hc', k', by simp only [Mixed.addFraction, hk, ok_bind_false, hk'], h⟩

/-- Adding an integer to a mixed number. -/
theorem addWhole_size {i : Mixed} {j : ℤ} {w d w' : ℕ} (hW : Room (IntTy.common W R) (w + w') neg)
    (hF : Room F d true) (hi : i.Invariant) (wi : Part w neg i.whole) (di : i.frac.den.natAbs ≤ d)
    (wj : Part w' neg j) :
    ∃ k, Mixed.addWhole W F R o i j ⇓ k ∧ k.whole.natAbs ≤ w + w' ∧
      k.frac.num.natAbs ≤ d ∧ k.frac.den.natAbs ≤ d := by
  have ni := hi.num_le
  obtain ⟨y, hy, b1, -⟩ := hi
  have fi := wi.fit hW.2
  have fj := wj.fit hW.2
  have hWm := hW.1
  push_cast at hWm
  have hw : (IntTy.common W R).InRange (i.whole + j) := (fi.add fj).inRange hW.1
  have ht := Narrow.Mixed.ratTrunc_proper b1
  have hq : |((i.whole + j : ℤ) : ℚ) + y| < ((w + w' : ℕ) : ℚ) + 1 := by
    have h1 : |((i.whole + j : ℤ) : ℚ)| ≤ ((w + w' : ℕ) : ℚ) := by
      rw [← Int.cast_abs, Int.abs_eq_natAbs]; exact_mod_cast (fi.add fj).1
    exact (abs_add_le _ _).trans_lt (by linarith)
  obtain ⟨k, hk, h⟩ := Mixed.mk_size (o := o) (W := IntTy.common W R) (hF.2 rfl) hF.1
    ⟨ni.trans di, di⟩ hy hw (ht ▸ inRange_zero _) (by rw [ht, add_zero]; exact hw) hq di
  refine ⟨k, ?_, h⟩
  have c1 : (IntTy.common W R).conv i.whole ⇓ i.whole :=
    conv_clean.2 ⟨fi.inRange (by omega), rfl⟩
  have c2 : (IntTy.common W R).conv j ⇓ j := conv_clean.2 ⟨fj.inRange (by omega), rfl⟩
  simp only [Mixed.addWhole, c1, c2, add_of_inRange hw, hk, ok_bind_false]

/-- Converting a mixed number to a fraction. -/
theorem asFraction_size {i : Mixed}
    (hc : Size.arith .plus (IntTy.common W F) a.over ⟨a.den, a.den⟩ neg = some c)
    (hi : i.Invariant) (wi : Part a.whole neg i.whole) (di : Part a.den neg i.frac.den)
    (si : neg = false → 0 ≤ i.frac.num) :
    c.neg = neg ∧ ∃ f, i.asFraction W F o ⇓ f ∧ f.num.natAbs ≤ c.num ∧ f.den.natAbs ≤ c.den := by
  obtain ⟨hA, hB, hs⟩ := arith_room hc
  have hn : Part a.den neg i.frac.num := ⟨hi.num_le.trans di.1, si⟩
  have f1 : i.frac.FitB (IntTy.common W F) ⟨a.den, a.den⟩ := Part.fitB (neg := neg) hn di hs
  obtain ⟨y, hy, -⟩ := hi
  obtain ⟨h1, f, hf, h2⟩ := arith_size_self (o := o) (d := .rf i.whole i.frac)
    (x := i.whole) (y := y) hc
    (fun hs => ⟨Part.fitB (neg := neg) (f := ⟨i.whole, 1⟩) (A := a.over) wi part_one hs, f1⟩)
    ⟨rfl, hy⟩ (by simp) rfl
  refine ⟨h1, f, ?_, h2⟩
  have c1 : (IntTy.common W F).conv i.whole ⇓ i.whole :=
    conv_clean.2 ⟨(wi.fit hs).inRange hA.1, rfl⟩
  have c2 : Fraction.ofOther (IntTy.common W F) i.frac ⇓ i.frac :=
    Raw.conv_clean.2 ⟨f1.inRange hB, rfl⟩
  simp only [Mixed.asFraction, c1, c2, hf, ok_bind_false]

/-! ### Binary operators -/

theorem bin_neg {op : ArithOp} (hc : Size.bin op l r a b = some c) :
    c.neg = (a.neg || b.neg || decide (op = .minus)) := by
  unfold Size.bin at hc
  dsimp only at hc
  split at hc
  all_goals try simp only [Size.builtin, Size.arith, Size.sum] at hc
  all_goals try split_ifs at hc
  all_goals first | (cases hc; done) | (cases hc; rfl)

theorem value_nonneg {op : ArithOp} (hq : op.value x y = some q) (hop : op ≠ .minus) (hx : 0 ≤ x)
    (hy : 0 ≤ y) : 0 ≤ q := by
  cases op with
  | plus => cases hq; positivity
  | minus => exact absurd rfl hop
  | multiplies => cases hq; positivity
  | divides =>
    simp only [ArithOp.value] at hq
    split_ifs at hq
    cases hq; positivity
  | modulus =>
    simp only [ArithOp.value] at hq
    split_ifs at hq with h0
    cases hq
    have hy' : 0 < y := lt_of_le_of_ne hy (Ne.symm h0)
    have h1 : (0 : ℚ) ≤ x / y := by positivity
    have h2 : (ratTrunc (x / y) : ℚ) ≤ x / y := by
      unfold ratTrunc
      rw [if_pos h1]
      exact Int.floor_le _
    have h3 : y * (ratTrunc (x / y) : ℚ) ≤ y * (x / y) := mul_le_mul_of_nonneg_left h2 hy
    rw [mul_div_cancel₀ x h0] at h3
    linarith

theorem binValue_nonneg {op : ArithOp} (hq : binValue op l r x y = some q) (hop : op ≠ .minus)
    (hx : 0 ≤ x) (hy : 0 ≤ y) : 0 ≤ q := by
  unfold binValue at hq
  split at hq
  · split_ifs at hq
    cases hq
    exact_mod_cast trunc_nonneg (by positivity)
  · exact value_nonneg hq hop hx hy

theorem divisorOk_nonneg {op : ArithOp} (hq : binValue op l r x y = some q) (hy : 0 ≤ y)
    (ho : op = .divides) : DivisorOk l r y := by
  subst ho
  have h0 : y ≠ 0 := by
    rintro rfl
    unfold binValue at hq
    split at hq <;> simp [ArithOp.value] at hq
  have hy' : 0 < y := lt_of_le_of_ne hy (Ne.symm h0)
  unfold DivisorOk
  split <;> first | trivial | exact .inl hy'

/-- Binary operators finish, within the magnitudes. -/
theorem bin_spans {op : ArithOp} (hc : Size.bin op l r a b = some c) (ha : a.Admits l u)
    (hb : b.Admits r v) (hx : u.Denotes x ∧ u.Proper) (hy : v.Denotes y ∧ v.Proper)
    (hq : binValue op l r x y = some q) :
    ∃ w t, Ty.bin op l r = some t ∧ apply op l r u v ⇓ w ∧ c.Spans t w := by
  have na : a.neg = true → (a.neg || b.neg || decide (op = .minus)) = true := by
    intro h; simp [h]
  have nb : b.neg = true → (a.neg || b.neg || decide (op = .minus)) = true := by
    intro h; simp [h]
  have nm : op = .minus → (a.neg || b.neg || decide (op = .minus)) = true := by
    intro h; simp [h]
  have sa : (a.neg || b.neg || decide (op = .minus)) = false → u.Nonneg := fun h =>
    ha.nonneg (by cases ea : a.neg; rfl; simp [ea] at h)
  have sb : (a.neg || b.neg || decide (op = .minus)) = false → v.Nonneg := fun h =>
    hb.nonneg (by cases eb : b.neg; rfl; simp [eb] at h)
  unfold Size.bin at hc
  dsimp only at hc
  generalize (a.neg || b.neg || decide (op = .minus)) = g at *
  split at hc
  · -- integers
    cases u <;> try exact ha.elim
    cases v <;> try exact hb.elim
    obtain ⟨rfl, -⟩ := hx
    obtain ⟨rfl, -⟩ := hy
    obtain ⟨-, k, hk, h1⟩ := builtin_size hc (Part.mono ha na) (Part.mono hb nb) nm hq
    exact ⟨.int k, _, rfl, by simp only [apply, hk, ok_bind_false, pure_def], part_true.2 h1⟩
  · -- fractions
    rename_i L o R o'
    cases u <;> try exact ha.elim
    cases v <;> try exact hb.elim
    split_ifs at hc with ho
    subst ho
    rename_i f1 f2
    have hq' : op.value x y = some q := by cases op <;> exact hq
    obtain ⟨-, f, hf, h1, h2⟩ := arith_size (o := o) (d := .ff f1 f2) hc
      (fun hs => ⟨ha.fitB hs na, hb.fitB hs nb⟩) ⟨hx.1, hy.1⟩ nm hq'
    refine ⟨.frac f, .frac (IntTy.common L R) o, by cases op <;> simp only [Ty.bin, resolve_eq, if_true], ?_, part_true.2 h1,
      part_true.2 h2⟩
    cases op <;> simp only [apply, resolve_eq, if_true, call, hf, ok_bind_false, pure_def]
  · rename_i L o R
    cases u <;> try exact ha.elim
    cases v <;> try exact hb.elim
    rename_i f1 n2
    have hq' : op.value x y = some q := by cases op <;> exact hq
    obtain ⟨-, f, hf, h1, h2⟩ := arith_size (o := o) (d := .fr f1 n2) hc
      (fun hs => ⟨ha.fitB hs na, Part.fitB_one hb hs nb⟩) ⟨hx.1, hy.1⟩ nm hq'
    refine ⟨.frac f, .frac (IntTy.common L R) o, by cases op <;> simp only [Ty.bin, resolve_eq], ?_, part_true.2 h1,
      part_true.2 h2⟩
    cases op <;> simp only [apply, resolve_eq, call, hf, ok_bind_false, pure_def]
  · rename_i L R o
    cases u <;> try exact ha.elim
    cases v <;> try exact hb.elim
    rename_i n1 f2
    have hq' : op.value x y = some q := by cases op <;> exact hq
    obtain ⟨-, f, hf, h1, h2⟩ := arith_size (o := o) (d := .rf n1 f2) hc
      (fun hs => ⟨Part.fitB_one ha hs na, hb.fitB hs nb⟩) ⟨hx.1, hy.1⟩ nm hq'
    refine ⟨.frac f, .frac (IntTy.common L R) o, by cases op <;> simp only [Ty.bin, resolve_eq], ?_, part_true.2 h1,
      part_true.2 h2⟩
    cases op <;> simp only [apply, resolve_eq, call, hf, ok_bind_false, pure_def]
  · -- mixed numbers
    rename_i W F o W' F' o'
    cases u <;> try exact ha.elim
    cases v <;> try exact hb.elim
    split_ifs at hc with ho
    obtain ⟨rfl, rfl⟩ := ho
    obtain ⟨-, k, hk, h1, h2, h3⟩ := sum_size (o := o) hc hx.2 hy.2 (ha.1.mono na) ha.2.2.1
      (hb.1.mono nb) hb.2.2.1 hx.1 hy.1 sa sb
    exact ⟨.mixed k, .mixed (IntTy.common W W') (IntTy.common F F') o, by simp only [Ty.bin, resolve_eq, if_true],
      by simp only [apply, resolve_eq, if_true, call, hk, ok_bind_false, pure_def],
      part_true.2 h1, part_true.2 h2, part_true.2 h3⟩
  · rename_i W F o R o'
    cases u <;> try exact ha.elim
    cases v <;> try exact hb.elim
    split_ifs at hc with ho
    obtain ⟨rfl, rfl, r1, r2⟩ := ho
    obtain ⟨-, k, hk, h1, h2, h3⟩ := addFraction_size (o := o) (A := b.frac) hc r1 r2 hx.2
      (ha.1.mono na) ha.2.2.1 hb.1.1 hb.2.1 hx.1 hy.1 sa sb
    exact ⟨.mixed k, .mixed (IntTy.common W R) (IntTy.common F R) o, by simp only [Ty.bin, resolve_eq, if_true],
      by simp only [apply, resolve_eq, if_true, call, hk, ok_bind_false, pure_def],
      part_true.2 h1, part_true.2 h2, part_true.2 h3⟩
  · rename_i L o W F o'
    cases u <;> try exact ha.elim
    cases v <;> try exact hb.elim
    split_ifs at hc with ho
    obtain ⟨rfl, rfl, r1, r2⟩ := ho
    obtain ⟨-, k, hk, h1, h2, h3⟩ := addFraction_size (o := o) (A := a.frac) hc r1 r2 hy.2
      (hb.1.mono nb) hb.2.2.1 ha.1.1 ha.2.1 hy.1 hx.1 sb sa
    exact ⟨.mixed k, .mixed (IntTy.common W L) (IntTy.common F L) o, by simp only [Ty.bin, resolve_eq, if_true],
      by simp only [apply, resolve_eq, if_true, call, hk, ok_bind_false, pure_def],
      part_true.2 h1, part_true.2 h2, part_true.2 h3⟩
  · rename_i W F o R
    cases u <;> try exact ha.elim
    cases v <;> try exact hb.elim
    split_ifs at hc with ho
    obtain ⟨rfl, r1, r2⟩ := ho
    cases hc
    obtain ⟨k, hk, h1, h2, h3⟩ := addWhole_size (o := o) r1 r2 hx.2 (ha.1.mono na) ha.2.2.1
      (Part.mono hb nb)
    exact ⟨.mixed k, .mixed (IntTy.common W R) F o, by simp only [Ty.bin, resolve_eq],
      by simp only [apply, resolve_eq, call, hk, ok_bind_false, pure_def],
      part_true.2 h1, part_true.2 h2, part_true.2 h3⟩
  · rename_i L W F o
    cases u <;> try exact ha.elim
    cases v <;> try exact hb.elim
    split_ifs at hc with ho
    obtain ⟨rfl, r1, r2⟩ := ho
    cases hc
    obtain ⟨k, hk, h1, h2, h3⟩ := addWhole_size (o := o) r1 r2 hy.2 (hb.1.mono nb) hb.2.2.1
      (Part.mono ha na)
    exact ⟨.mixed k, .mixed (IntTy.common L W) F o, by simp only [Ty.bin, resolve_eq],
      by simp only [apply, resolve_eq, call, hk, ok_bind_false, pure_def],
      part_true.2 h1, part_true.2 h2, part_true.2 h3⟩
  · -- literals
    rename_i T o s o'
    cases u <;> try exact ha.elim
    cases v <;> try exact hb.elim
    split_ifs at hc with ho
    obtain ⟨rfl, rfl⟩ := ho
    rename_i f1 n2
    obtain ⟨-, hB, hs⟩ := arith_room hc
    have fb := Part.fitB_one hb hs nb
    obtain ⟨-, f, hf, h1, h2⟩ := arith_size_self (o := o) (d := .fr f1 n2) hc
      (fun hs => ⟨ha.fitB hs na, Part.fitB_one hb hs nb⟩) ⟨hx.1, hy.1⟩ (by simp) hq
    refine ⟨.frac f, .frac T o, by simp only [Ty.bin, resolve_eq, if_true], ?_, part_true.2 h1,
      part_true.2 h2⟩
    have c1 : T.conv n2 ⇓ n2 := conv_clean.2 ⟨fb.1.inRange hB.1, rfl⟩
    simp only [apply, resolve_eq, if_true, call, DenLit.divFraction, c1, hf, ok_bind_false, pure_def]
  · rename_i T s o
    cases u <;> try exact ha.elim
    cases v <;> try exact hb.elim
    split_ifs at hc with ho
    obtain ⟨rfl, hr⟩ := ho
    cases hc
    rename_i n1 n2
    have c1 : T.conv n2 ⇓ n2 := conv_clean.2 ⟨Part.inRange hb hr, rfl⟩
    exact ⟨.frac ⟨n1, n2⟩, .frac T o, by simp only [Ty.bin, resolve_eq],
      by simp only [apply, resolve_eq, call, DenLit.divRep, Fraction.mk, c1, ok_bind_false, pure_def],
      part_true.2 ha.1, part_true.2 hb.1⟩
  · cases hc

/-- Binary operators finish, within the size. -/
theorem bin_size {op : ArithOp} (hc : Size.bin op l r a b = some c) (ha : a.Admits l u)
    (hb : b.Admits r v) (hx : u.Denotes x ∧ u.Proper) (hy : v.Denotes y ∧ v.Proper)
    (hq : binValue op l r x y = some q) :
    ∃ w t, Ty.bin op l r = some t ∧ apply op l r u v ⇓ w ∧ c.Admits t w := by
  obtain ⟨w, t, ht, hw, hs⟩ := bin_spans hc ha hb hx hy hq
  refine ⟨w, t, ht, hw, hs.admits fun e => ?_⟩
  rw [bin_neg hc] at e
  simp only [Bool.or_eq_false_iff, decide_eq_false_iff_not] at e
  obtain ⟨x0, ux⟩ := (ha.nonneg e.1.1).facts hx.1
  obtain ⟨y0, uy⟩ := (hb.nonneg e.1.2).facts hy.1
  exact nonneg_of ⟨apply_exact hw hx.1 hy.1 hq, apply_proper hw⟩
    (apply_upright hw hx.1 hy.1 hq ux uy (divisorOk_nonneg hq y0)) (binValue_nonneg hq e.2 x0 y0)

/-! ### Conversions, compound assignment, comparisons and calls -/

theorem convert_neg (hc : Size.convert l r a = some c) : c.neg = a.neg := by
  unfold Size.convert at hc
  split at hc
  all_goals try simp only [Size.arith] at hc
  all_goals try split_ifs at hc
  all_goals first | (cases hc; done) | (cases hc; rfl)

theorem convert_spans (hc : Size.convert l r a = some c) (ha : a.Admits l u)
    (hx : u.Denotes x ∧ u.Proper) : ∃ w, convert l r u ⇓ w ∧ c.Spans r w := by
  have hn := fun e => Size.Admits.nonneg ha e
  unfold Size.convert at hc
  split at hc
  · -- integers
    rename_i T
    cases u <;> try exact ha.elim
    split_ifs at hc with h
    cases hc
    exact ⟨.int _, by simp only [convert, conv_clean.2 ⟨Part.inRange ha h, rfl⟩, ok_bind_false,
      pure_def], part_true.2 ha.1⟩
  · rename_i T o
    cases u <;> try exact ha.elim
    split_ifs at hc with h
    cases hc
    rename_i n
    exact ⟨.frac ⟨n, 1⟩, by simp only [convert, conv_clean.2 ⟨Part.inRange ha h, rfl⟩,
      Fraction.mk, ok_bind_false, pure_def], part_true.2 ha.1, part_true.2 le_rfl⟩
  · rename_i W F o
    cases u <;> try exact ha.elim
    split_ifs at hc with h
    cases hc
    rename_i n
    have hz : Ieme.Denotes Fraction.default 0 := by norm_num [Denotes, Fraction.default]
    have ht : ratTrunc 0 = 0 := Narrow.Mixed.ratTrunc_proper (by norm_num)
    have hw := Part.inRange ha h.1
    obtain ⟨k, hk, h1, h2, h3⟩ := Mixed.mk_size (o := o) (W := W) (F := F) (K := 1) (n := a.whole)
      (d := 1) (h.2.2 rfl) h.2.1 (f := Fraction.default) ⟨by decide, by decide⟩ hz hw
      (ht ▸ inRange_zero _) (by rw [ht, add_zero]; exact hw)
      (by
        rw [add_zero, ← Int.cast_abs, Int.abs_eq_natAbs]
        have : ((n.natAbs : ℕ) : ℚ) ≤ a.whole := by exact_mod_cast ha.1
        have e : (((n.natAbs : ℕ) : ℤ) : ℚ) = ((n.natAbs : ℕ) : ℚ) := Int.cast_natCast _
        rw [e]
        linarith) (by decide)
    exact ⟨.mixed k, by simp only [convert, conv_clean.2 ⟨hw, rfl⟩, hk, ok_bind_false, pure_def],
      part_true.2 h1, part_true.2 h2, part_true.2 h3⟩
  · rename_i s o
    cases u <;> try exact ha.elim
    rename_i n
    have hr : (if s then i64 else u64).InRange n := by
      by_contra h
      have : ¬Room (if s then i64 else u64) a.whole a.neg := fun hr => h (Part.inRange ha hr)
      rw [if_neg this] at hc
      cases hc
    have hc : c = { whole := a.whole, neg := a.neg } := by
      split_ifs at hc <;> cases hc <;> rfl
    subst hc
    have hr' : (DenLit.ty ⟨s, 0⟩).InRange n := hr
    exact ⟨.lit n, by simp only [convert, conv_clean.2 ⟨hr', rfl⟩, ok_bind_false, pure_def],
      part_true.2 ha.1⟩
  · -- fractions
    rename_i S o T o'
    cases u <;> try exact ha.elim
    split_ifs at hc with h
    cases hc
    obtain ⟨rfl, h⟩ := h
    rename_i f
    refine ⟨.frac f, ?_, part_true.2 ha.1.1, part_true.2 ha.2.1⟩
    simp only [convert, if_true]
    split_ifs with hS
    · rfl
    · obtain ⟨h1, h2⟩ := h.resolve_left hS
      have : Fraction.ofOther T f ⇓ f :=
        Raw.conv_clean.2 ⟨⟨Part.inRange ha.1 h1, Part.inRange ha.2 h2⟩, rfl⟩
      simp only [this, ok_bind_false, pure_def]
  · rename_i S o W F o'
    cases u <;> try exact ha.elim
    split_ifs at hc with h
    cases hc
    obtain ⟨rfl, s1, s2, f1, f2, hw⟩ := h
    rename_i f
    have ht : Part a.num a.neg (ratTrunc x) :=
      ⟨(trunc_num_le hx.1).trans ha.1.1, fun e => trunc_nonneg ((hn e).facts hx.1).1⟩
    obtain ⟨k, hk, h1, h2, h3⟩ := ofFraction_size (o := o) (A := a.frac) (W := W) ha.1.1 ha.2.1 hx.1
      s1 s2 f1 f2 (ht.inRange hw)
    exact ⟨.mixed k, by simp only [convert, if_true, hk, ok_bind_false, pure_def], part_true.2 h1,
      part_true.2 h2, part_true.2 h3⟩
  · -- mixed numbers
    rename_i W F o T o'
    cases u <;> try exact ha.elim
    split_ifs at hc with h
    obtain ⟨rfl, rfl⟩ := h
    obtain ⟨-, f, hf, h1, h2⟩ := asFraction_size (o := o) hc hx.2 ha.1 ha.2.2 fun e => (hn e).2.1
    exact ⟨.frac f, by simp only [convert, and_self, if_true, hf, ok_bind_false, pure_def],
      part_true.2 h1, part_true.2 h2⟩
  · cases u <;> try exact ha.elim
    split_ifs at hc with h
    cases hc
    obtain ⟨rfl, rfl, rfl⟩ := h
    exact ⟨.mixed _, by simp only [convert, and_self, if_true, pure_def], part_true.2 ha.1.1,
      part_true.2 ha.2.1.1, part_true.2 ha.2.2.1⟩
  · cases u <;> try exact ha.elim
    split_ifs at hc with h
    cases hc
    obtain ⟨rfl, rfl⟩ := h
    exact ⟨.lit _, by simp only [convert, and_self, if_true, pure_def], part_true.2 ha.1⟩
  · cases hc

theorem convert_size (hc : Size.convert l r a = some c) (ha : a.Admits l u)
    (hx : u.Denotes x ∧ u.Proper) : ∃ w, convert l r u ⇓ w ∧ c.Admits r w := by
  obtain ⟨w, hw, hs⟩ := convert_spans hc ha hx
  refine ⟨w, hw, hs.admits fun e => ?_⟩
  rw [convert_neg hc] at e
  obtain ⟨x0, ux⟩ := (ha.nonneg e).facts hx.1
  exact nonneg_of (convert_exact hw hx) (convert_upright hw ux) x0

theorem compound_neg {op : ArithOp} (hc : Size.compound op l r a b = some c) :
    c.neg = (a.neg || b.neg || decide (op = .minus)) := by
  unfold Size.compound at hc
  dsimp only at hc
  split at hc
  · obtain ⟨d, hd, hc⟩ := Option.bind_eq_some_iff.1 hc
    simp only [Size.builtin] at hd
    split_ifs at hd
    split_ifs at hc
    cases hd; cases hc; rfl
  all_goals try simp only [Size.arith] at hc
  all_goals try split_ifs at hc
  all_goals first | (cases hc; done) | (cases hc; rfl)

theorem compound_spans {op : ArithOp} (hc : Size.compound op l r a b = some c) (ha : a.Admits l u)
    (hb : b.Admits r v) (hx : u.Denotes x ∧ u.Proper) (hy : v.Denotes y ∧ v.Proper)
    (hq : binValue op l r x y = some q) :
    ∃ w, compoundAssign op l r u v ⇓ w ∧ c.Spans l w := by
  have na : a.neg = true → (a.neg || b.neg || decide (op = .minus)) = true := by
    intro h; simp [h]
  have nb : b.neg = true → (a.neg || b.neg || decide (op = .minus)) = true := by
    intro h; simp [h]
  have nm : op = .minus → (a.neg || b.neg || decide (op = .minus)) = true := by
    intro h; simp [h]
  have sg : (a.neg || b.neg || decide (op = .minus)) = false → 0 ≤ q := by
    intro e
    simp only [Bool.or_eq_false_iff, decide_eq_false_iff_not] at e
    exact binValue_nonneg hq e.2 ((ha.nonneg e.1.1).facts hx.1).1 ((hb.nonneg e.1.2).facts hy.1).1
  unfold Size.compound at hc
  dsimp only at hc
  generalize (a.neg || b.neg || decide (op = .minus)) = g at *
  split at hc
  · rename_i A B
    cases u <;> try exact ha.elim
    cases v <;> try exact hb.elim
    obtain ⟨d, hd, hc⟩ := Option.bind_eq_some_iff.1 hc
    split_ifs at hc with h
    cases hc
    obtain ⟨rfl, -⟩ := hx
    obtain ⟨rfl, -⟩ := hy
    obtain ⟨e, k, hk, h1⟩ := builtin_size hd (Part.mono ha na) (Part.mono hb nb) nm hq
    have hp : Part c.whole c.neg k := ⟨h1, fun e' => by
      have h0 := sg (e ▸ e')
      rw [← show (k : ℚ) = q from builtin_exact hk hq] at h0
      exact_mod_cast h0⟩
    exact ⟨.int k, by simp only [compoundAssign, hk, conv_clean.2 ⟨hp.inRange h, rfl⟩, ok_bind_false,
      pure_def], part_true.2 h1⟩
  · rename_i L o R o'
    cases u <;> try exact ha.elim
    cases v <;> try exact hb.elim
    split_ifs at hc with ho
    subst ho
    rename_i f1 f2
    have hq' : op.value x y = some q := by cases op <;> exact hq
    obtain ⟨-, hB, hs⟩ := arith_room hc
    have fb : f2.FitB L b.frac := hb.fitB hs nb
    obtain ⟨-, f, hf, h1, h2⟩ := arith_size_self (o := o) (d := .ff f1 f2) hc
      (fun hs => ⟨ha.fitB hs na, hb.fitB hs nb⟩) ⟨hx.1, hy.1⟩ nm hq'
    refine ⟨.frac f, ?_, part_true.2 h1, part_true.2 h2⟩
    have hc2 : Fraction.ofOther L f2 ⇓ f2 := Raw.conv_clean.2 ⟨fb.inRange hB, rfl⟩
    have : Fraction.assignF L R o op f1 f2 ⇓ f := by
      unfold Fraction.assignF
      split_ifs with e
      · subst e; exact hf
      · simp only [hc2, ok_bind_false, hf]
    simp only [compoundAssign, resolveAssign_eq, if_true, this, ok_bind_false, pure_def]
  · rename_i L o R
    cases u <;> try exact ha.elim
    cases v <;> try exact hb.elim
    rename_i f1 n2
    have hq' : op.value x y = some q := by cases op <;> exact hq
    obtain ⟨-, hB, hs⟩ := arith_room hc
    have fb := Part.fitB_one hb hs nb
    obtain ⟨-, f, hf, h1, h2⟩ := arith_size_self (o := o) (d := .fr f1 n2) hc
      (fun hs => ⟨ha.fitB hs na, Part.fitB_one hb hs nb⟩) ⟨hx.1, hy.1⟩ nm hq'
    refine ⟨.frac f, ?_, part_true.2 h1, part_true.2 h2⟩
    have hc2 : L.conv n2 ⇓ n2 := conv_clean.2 ⟨fb.1.inRange hB.1, rfl⟩
    have : Fraction.assignR L R o op f1 n2 ⇓ f := by
      unfold Fraction.assignR
      split_ifs with e
      · subst e; exact hf
      · simp only [hc2, ok_bind_false, hf]
    simp only [compoundAssign, resolveAssign_eq, this, ok_bind_false, pure_def]
  · cases hc

theorem compound_size {op : ArithOp} (hc : Size.compound op l r a b = some c) (ha : a.Admits l u)
    (hb : b.Admits r v) (hx : u.Denotes x ∧ u.Proper) (hy : v.Denotes y ∧ v.Proper)
    (hq : binValue op l r x y = some q) :
    ∃ w, compoundAssign op l r u v ⇓ w ∧ c.Admits l w := by
  obtain ⟨w, hw, hs⟩ := compound_spans hc ha hb hx hy hq
  refine ⟨w, hw, hs.admits fun e => ?_⟩
  rw [compound_neg hc] at e
  simp only [Bool.or_eq_false_iff, decide_eq_false_iff_not] at e
  obtain ⟨x0, ux⟩ := (ha.nonneg e.1.1).facts hx.1
  obtain ⟨y0, uy⟩ := (hb.nonneg e.1.2).facts hy.1
  exact nonneg_of (compoundAssign_exact hw hx.1 hy.1 hq)
    (compoundAssign_upright hw hx.1 hy.1 hq ux uy (divisorOk_nonneg hq y0))
    (binValue_nonneg hq e.2 x0 y0)

theorem cmp_size {op : CmpOp} {d : Args} {A B : Bound} (hA : A.Le (IntTy.common L R).max)
    (hB : B.Le (IntTy.common L R).max) (hc : A.Comparable B (IntTy.common L R).max)
    (hf : d.FitB (IntTy.common L R) A B) (hd : d.Denote x y) : ∃ b, Fraction.cmp L R o op d ⇓ b := by
  obtain ⟨b, hb⟩ := Ops.cmp_fits (o := o) (op := op) hd hf hA hB hc
  exact ⟨b, by simp only [Fraction.cmp, Fraction.toCommon_of_inRange (hf.inRange hA hB),
    ok_bind_false, hb]⟩

theorem compare_size {op : CmpOp} (hc : Size.compares op l r a b = true) (ha : a.Admits l u)
    (hb : b.Admits r v) (hx : u.Denotes x) (hy : v.Denotes y) :
    ∃ d, Overload.compare op l r u v ⇓ d ∧ (d = true ↔ op.Holds x y) := by
  have na : a.neg = true → (a.neg || b.neg) = true := by intro h; simp [h]
  have nb : b.neg = true → (a.neg || b.neg) = true := by intro h; simp [h]
  have up : (a.neg || b.neg) = false → u.Upright ∧ v.Upright := fun e => by
    simp only [Bool.or_eq_false_iff] at e
    exact ⟨((ha.nonneg e.1).facts hx).2, ((hb.nonneg e.2).facts hy).2⟩
  suffices h : (∃ d, Overload.compare op l r u v ⇓ d) ∧
      (Reliable op (some l) (some r) ∨ u.Upright ∧ v.Upright) by
    obtain ⟨⟨d, hd⟩, h⟩ := h
    refine ⟨d, hd, ?_⟩
    rcases h with h | ⟨h1, h2⟩
    · exact compare_exact hd h hx hy
    · exact compare_upright hd hx hy h1 h2
  unfold Size.compares at hc
  dsimp only at hc
  split at hc
  · cases u <;> try exact ha.elim
    cases v <;> try exact hb.elim
    have hc := of_decide_eq_true hc
    rename_i n1 n2
    exact ⟨⟨builtinCmp op n1 n2, by simp only [Overload.compare, conv_clean.2 ⟨Part.inRange ha hc.1, rfl⟩,
      conv_clean.2 ⟨Part.inRange hb hc.2, rfl⟩, ok_bind_false, pure_def]⟩, .inl (.inr trivial)⟩
  · rename_i L o R o'
    cases u <;> try exact ha.elim
    cases v <;> try exact hb.elim
    simp only [Bool.and_eq_true, Bool.or_eq_true, decide_eq_true_eq] at hc
    obtain ⟨⟨rfl, h1, h2, h3, hs⟩, hr⟩ := hc
    rename_i f1 f2
    simp only [← Bool.or_eq_true] at hs
    refine ⟨?_, ?_⟩
    · obtain ⟨d, hd⟩ := cmp_size (o := o) (op := op) (d := .ff f1 f2) h1 h2 h3
        ⟨ha.fitB hs na, hb.fitB hs nb⟩ ⟨hx, hy⟩
      exact ⟨d, by simp only [Overload.compare, resolveCmp_eq, if_true, hd]⟩
    · rcases hr with (hr | hr) | hr
      · exact .inl (.inl hr)
      · exact .inr (up hr)
      · exact .inl (.inr hr)
  · rename_i L o R
    cases u <;> try exact ha.elim
    cases v <;> try exact hb.elim
    simp only [Bool.and_eq_true, Bool.or_eq_true, decide_eq_true_eq] at hc
    obtain ⟨⟨h1, h2, h3, hs⟩, hr⟩ := hc
    rename_i f1 n2
    simp only [← Bool.or_eq_true] at hs
    refine ⟨?_, hr.elim (fun hr => .inl (.inl hr)) fun hr => .inr (up hr)⟩
    obtain ⟨d, hd⟩ := cmp_size (o := o) (op := op) (d := .fr f1 n2) h1 h2 h3
      ⟨ha.fitB hs na, Part.fitB_one hb hs nb⟩ ⟨hx, hy⟩
    exact ⟨d, by simp only [Overload.compare, resolveCmp_eq, hd]⟩
  · rename_i L R o
    cases u <;> try exact ha.elim
    cases v <;> try exact hb.elim
    simp only [Bool.and_eq_true, Bool.or_eq_true, decide_eq_true_eq] at hc
    obtain ⟨⟨h1, h2, h3, hs⟩, hr⟩ := hc
    rename_i n1 f2
    simp only [← Bool.or_eq_true] at hs
    refine ⟨?_, hr.elim (fun hr => .inl (.inl hr)) fun hr => .inr (up hr)⟩
    obtain ⟨d, hd⟩ := cmp_size (o := o) (op := op) (d := .rf n1 f2) h1 h2 h3
      ⟨Part.fitB_one ha hs na, hb.fitB hs nb⟩ ⟨hx, hy⟩
    exact ⟨d, by simp only [Overload.compare, resolveCmp_eq, hd]⟩
  · cases hc

theorem call_neg {f : Call} (hc : Size.call f t a = some c) : c.neg = a.neg := by
  unfold Size.call at hc
  split at hc
  all_goals try simp only [Size.arith] at hc
  all_goals try split_ifs at hc
  all_goals first | (cases hc; done) | (cases hc; rfl)

theorem call_spans {f : Call} {t' : Ty} (hc : Size.call f t a = some c) (ht : f.ty t = some t')
    (ha : a.Admits t u) (hx : u.Denotes x ∧ u.Proper) :
    ∃ w, f.run t u ⇓ w ∧ c.Spans t' w := by
  have hn := fun e => Size.Admits.nonneg ha e
  unfold Size.call at hc
  split at hc
  · rename_i T o
    cases ht
    cases u <;> try exact ha.elim
    split_ifs at hc with h
    cases hc
    rename_i f
    have h1 : Fit T a.num f.num := ha.1.fit h.1.2
    have h2 : Fit T a.den f.den := ha.2.fit h.2.2
    have hd := div_of (T := T) hx.1.1 ((h1.tdiv h2).inRange h.1.1)
    exact ⟨.int _, by simp only [Call.run, Fraction.trunc, hd, ok_bind_false, pure_def],
      part_true.2 (h1.tdiv h2).1⟩
  · rename_i T o
    cases ht
    cases u <;> try exact ha.elim
    split_ifs at hc with h
    cases hc
    rename_i f
    by_cases hf : f.isNonNegative
    · exact ⟨.frac f, by simp only [Call.run, Fraction.abs, hf, if_true, pure_def, ok_bind_false],
        part_true.2 ha.1.1, part_true.2 ha.2.1⟩
    · have hneg : a.neg = true := by
        cases e : a.neg
        · refine absurd ?_ hf
          have h1 : 0 ≤ f.num := (hn e).1
          have h2 : 0 ≤ f.den := (hn e).2
          have h3 : f.den ≠ 0 := hx.1.1
          simp only [Raw.isNonNegative, Bool.or_eq_true, Bool.and_eq_true, decide_eq_true_eq]
          omega
        · rfl
      obtain ⟨g, hg, fg⟩ := Ops.negate_fitB (o := o) (T := T) (v := f) (A := a.frac) (h.1.2 hneg)
        (ha.fitB h.1.2 id) ⟨h.1.1, h.2.1⟩
      exact ⟨.frac g, by simp only [Call.run, Fraction.abs, hf, if_false, Bool.false_eq_true, Fraction.neg, hg,
        pure_def, ok_bind_false], part_true.2 fg.1.1, part_true.2 fg.2.1⟩
  · cases ht
    cases u <;> try exact ha.elim
    cases hc
    exact ⟨.frac _, rfl, part_true.2 ha.2.1, part_true.2 ha.1.1⟩
  · cases ht
    cases u <;> try exact ha.elim
    cases hc
    exact ⟨.int _, rfl, part_true.2 ha.1.1⟩
  · cases ht
    cases u <;> try exact ha.elim
    cases hc
    exact ⟨.frac _, rfl, part_true.2 ha.2.1.1, part_true.2 ha.2.2.1⟩
  · rename_i W F o
    cases ht
    cases u <;> try exact ha.elim
    obtain ⟨-, f, hf, h1, h2⟩ := asFraction_size (o := o) hc hx.2 ha.1 ha.2.2 fun e => (hn e).2.1
    exact ⟨.frac f, by simp only [Call.run, hf, ok_bind_false, pure_def],
      part_true.2 h1, part_true.2 h2⟩
  · cases hc

theorem call_size {f : Call} {t' : Ty} (hc : Size.call f t a = some c) (ht : f.ty t = some t')
    (ha : a.Admits t u) (hx : u.Denotes x ∧ u.Proper) (hq : f.value x = some q) :
    ∃ w, f.run t u ⇓ w ∧ c.Admits t' w := by
  obtain ⟨w, hw, hs⟩ := call_spans hc ht ha hx
  refine ⟨w, hw, hs.admits fun e => ?_⟩
  rw [call_neg hc] at e
  obtain ⟨x0, ux⟩ := (ha.nonneg e).facts hx.1
  refine nonneg_of (callRun_exact hw hx hq) (callRun_upright hw hx.1 ux ?_) ?_
  · rintro rfl
    simp only [Call.value] at hq
    split_ifs at hq with h0
    exact lt_of_le_of_ne x0 (Ne.symm h0)
  · cases f <;> simp only [Call.value, Option.some.injEq] at hq
    · subst hq; exact_mod_cast trunc_nonneg x0
    · subst hq; positivity
    · split_ifs at hq
      cases hq; positivity
    · subst hq; exact_mod_cast trunc_nonneg x0
    · subst hq
      unfold ratTrunc
      rw [if_pos x0]
      have := Int.floor_le x
      linarith
    · subst hq; exact x0

/-! ### Expressions, conditions and programs -/

theorem Val.size_admits (h : v.size t = some a) : a.Admits t v := by
  cases t <;> cases v <;> simp only [Val.size, reduceCtorEq, Option.some.injEq] at h
  all_goals
    subst h
    simp only [Size.Admits, Part, decide_eq_false_iff_not, le_refl, true_and]
    omega

variable {Γ : Decls} {m m' : Vars} {s s' : ℕ → ℚ} {e : VExpr} {A B : Sizes}

theorem VExpr.eval_size (hm : m.Holds s) (hw : m.Within Γ A) (he : e.Proper)
    (hq : e.value Γ s = some q) (hc : e.size Γ A = some c) (ht : e.ty Γ = some t) :
    ∃ v, (e.inst Γ m).eval ⇓ v ∧ v.Denotes q ∧ v.Proper ∧ c.Admits t v := by
  suffices h : ∃ v, (e.inst Γ m).eval ⇓ v ∧ c.Admits t v by
    obtain ⟨v, hv, ha⟩ := h
    exact ⟨v, hv, (inst_exact hm he hv hq).1, (inst_exact hm he hv hq).2, ha⟩
  induction e generalizing q c t with
  | var x =>
    cases hc; cases ht
    exact ⟨m x, rfl, hw x⟩
  | obj t' v =>
    cases ht
    exact ⟨v, rfl, Val.size_admits hc⟩
  | pos e ih => exact ih he hq hc ht
  | neg e ih =>
    simp only [VExpr.size, Option.bind_eq_some_iff] at hc
    obtain ⟨t', ht', a, ha, hc⟩ := hc
    simp only [VExpr.ty, ht', Option.map_some, Option.some.injEq] at ht
    subst ht
    simp only [VExpr.value, Option.map_eq_some_iff] at hq
    obtain ⟨x, hx, rfl⟩ := hq
    obtain ⟨u, hu, hua⟩ := ih he hx ha ht'
    obtain ⟨w, hw', hwa⟩ := negate_size hc hua (inst_exact (e := e) hm he hu hx)
    exact ⟨w, by simp only [VExpr.inst, TExpr.eval, inst_ty, ht', hu, ok_bind_false, hw'], hwa⟩
  | bin op l r ih1 ih2 =>
    simp only [VExpr.size, Option.bind_eq_some_iff] at hc
    obtain ⟨t1, ht1, t2, ht2, a, ha, b, hb, hc⟩ := hc
    simp only [VExpr.value, ht1, ht2, Option.bind_eq_some_iff] at hq
    obtain ⟨x, hx, y, hy, hq⟩ := hq
    obtain ⟨u, hu, hua⟩ := ih1 he.1 hx ha ht1
    obtain ⟨v, hv, hva⟩ := ih2 he.2 hy hb ht2
    obtain ⟨w, t', ht', hw', hwa⟩ := bin_size hc hua hva (inst_exact hm he.1 hu hx)
      (inst_exact hm he.2 hv hy) hq
    simp only [VExpr.ty, ht1, ht2, Option.bind_some, ht', Option.some.injEq] at ht
    subst ht
    exact ⟨w, by simp only [VExpr.inst, TExpr.eval, inst_ty, ht1, ht2, hu, hv, ok_bind_false, hw'],
      hwa⟩

theorem Stmt.test_size {op : CmpOp} {e1 e2 : VExpr} (hm : m.Holds s) (hw : m.Within Γ A)
    (p1 : e1.Proper) (p2 : e2.Proper) (h1 : e1.value Γ s = some x) (h2 : e2.value Γ s = some y)
    (hc : VExpr.checks Γ A op e1 e2 = true) :
    ∃ b, Stmt.test Γ m op e1 e2 ⇓ b ∧ (b = true ↔ op.Holds x y) := by
  unfold VExpr.checks at hc
  split at hc
  · rename_i t t' a b ht ht' ha hb
    obtain ⟨u, hu, hu1, -, hu2⟩ := VExpr.eval_size hm hw p1 h1 ha ht
    obtain ⟨v, hv, hv1, -, hv2⟩ := VExpr.eval_size hm hw p2 h2 hb ht'
    obtain ⟨d, hd, hd'⟩ := compare_size hc hu2 hv2 hu1 hv1
    exact ⟨d, by simp only [Stmt.test, ht, ht', hu, hv, ok_bind_false, hd], hd'⟩
  · cases hc

/-- What is known of the variables. -/
def After.Admits (Γ : Decls) (m : Vars) : After → Prop
  | .unreached => False
  | .within A => m.Within Γ A

theorem Size.admits_mono (ha : a.Admits t v) (h1 : a.whole ≤ c.whole) (h2 : a.num ≤ c.num)
    (h3 : a.den ≤ c.den) (h4 : c.neg = false → a.neg = false) : c.Admits t v := by
  have key : ∀ {k k' : ℕ} {n : ℤ}, k ≤ k' → Part k a.neg n → Part k' c.neg n :=
    fun hk hp => ⟨hp.1.trans hk, fun e => hp.2 (h4 e)⟩
  cases t <;> cases v <;> try exact ha.elim
  · exact key h1 ha
  · exact ⟨key h2 ha.1, key h3 ha.2⟩
  · exact ⟨key h1 ha.1, key h2 ha.2.1, key h3 ha.2.2⟩
  · exact key h1 ha

theorem Size.join_left (h : a.Admits t v) : (a.join b).Admits t v :=
  Size.admits_mono h (le_max_left _ _) (le_max_left _ _) (le_max_left _ _) fun e => by
    simp only [Size.join, Bool.or_eq_false_iff] at e
    exact e.1

theorem Size.join_right (h : b.Admits t v) : (a.join b).Admits t v :=
  Size.admits_mono h (le_max_right _ _) (le_max_right _ _) (le_max_right _ _) fun e => by
    simp only [Size.join, Bool.or_eq_false_iff] at e
    exact e.2

theorem After.join_left {R R' : After} (h : R.Admits Γ m) : (R.join R').Admits Γ m := by
  cases R <;> cases R' <;> try exact h
  · exact h.elim
  · exact fun x => Size.join_left (h x)

theorem After.join_right {R R' : After} (h : R'.Admits Γ m) : (R.join R').Admits Γ m := by
  cases R <;> cases R' <;> try exact h
  · exact h.elim
  · exact fun x => Size.join_right (h x)

theorem set_within (hw : m.Within Γ A) {z : ℕ} (h : a.Admits (Γ z) v) :
    (m.set z v).Within Γ (A.set z a) := by
  intro w
  by_cases hz : w = z
  · subst hz; simpa only [Vars.set, Sizes.set, if_true] using h
  · simpa only [Vars.set, Sizes.set, hz, if_false] using hw w

/-- Runs of an accepted program. -/
theorem Stmt.exec_size {P : Stmt} (hr : Meaning Γ P s s') :
    ∃ N, ∀ n m A R, m.Holds s → m.Within Γ A → P.All VExpr.Proper → P.check Γ n A = some R →
      (n < N ∧ P.exec Γ n m ⇓ none) ∨
        ∃ m', P.exec Γ n m ⇓ some m' ∧ m'.Holds s' ∧ R.Admits Γ m' := by
  induction hr with
  | skip =>
    refine ⟨1, fun n m A R hm hw _ hk => ?_⟩
    cases n with
    | zero => exact .inl ⟨by decide, rfl⟩
    | succ n =>
      cases hk
      exact .inr ⟨m, rfl, hm, hw⟩
  | @assign s x e q he =>
    refine ⟨1, fun n m A R hm hw hp hk => ?_⟩
    cases n with
    | zero => exact .inl ⟨by decide, rfl⟩
    | succ n =>
      simp only [Stmt.check, Option.bind_eq_some_iff, Option.map_eq_some_iff] at hk
      obtain ⟨t, ht, a, ha, b, hb, rfl⟩ := hk
      obtain ⟨v, hv, v1, v2, v3⟩ := VExpr.eval_size hm hw hp he ha ht
      obtain ⟨w, hw', w1⟩ := convert_size hb v3 ⟨v1, v2⟩
      exact .inr ⟨m.set x w, by simp only [Stmt.exec, ht, hv, ok_bind_false, hw', pure_def],
        set_holds hm (convert_exact hw' ⟨v1, v2⟩), set_within hw w1⟩
  | @compound s op x e t p q ht he hq =>
    refine ⟨1, fun n m A R hm hw hp hk => ?_⟩
    cases n with
    | zero => exact .inl ⟨by decide, rfl⟩
    | succ n =>
      simp only [Stmt.check, Option.bind_eq_some_iff, Option.map_eq_some_iff] at hk
      obtain ⟨t', ht', a, ha, b, hb, rfl⟩ := hk
      cases ht.symm.trans ht'
      obtain ⟨v, hv, v1, v2, v3⟩ := VExpr.eval_size hm hw hp he ha ht
      obtain ⟨w, hw', w1⟩ := compound_size hb (hw x) v3 (hm x) ⟨v1, v2⟩ hq
      exact .inr ⟨m.set x w, by simp only [Stmt.exec, ht, hv, ok_bind_false, hw', pure_def],
        set_holds hm (compoundAssign_exact hw' (hm x).1 v1 hq), set_within hw w1⟩
  | @call s f x e p q he hq =>
    refine ⟨1, fun n m A R hm hw hp hk => ?_⟩
    cases n with
    | zero => exact .inl ⟨by decide, rfl⟩
    | succ n =>
      simp only [Stmt.check, Option.bind_eq_some_iff, Option.map_eq_some_iff] at hk
      obtain ⟨t, ht, t', ht', a, ha, b, hb, c, hc, rfl⟩ := hk
      obtain ⟨v, hv, v1, v2, v3⟩ := VExpr.eval_size hm hw hp he ha ht
      obtain ⟨u, hu, u1⟩ := call_size hb ht' v3 ⟨v1, v2⟩ hq
      have ux := callRun_exact hu ⟨v1, v2⟩ hq
      obtain ⟨w, hw', w1⟩ := convert_size hc u1 ux
      exact .inr ⟨m.set x w, by
        simp only [Stmt.exec, ht, ht', hv, hu, ok_bind_false, hw', pure_def],
        set_holds hm (convert_exact hw' ux), set_within hw w1⟩
  | @seq c d s s1 s2 hc hd ihc ihd =>
    obtain ⟨N1, ihc⟩ := ihc
    obtain ⟨N2, ihd⟩ := ihd
    refine ⟨max N1 N2 + 1, fun n m A R hm hw hp hk => ?_⟩
    cases n with
    | zero => exact .inl ⟨by omega, rfl⟩
    | succ n =>
      simp only [Stmt.check] at hk
      cases hk1 : c.check Γ n A with
      | none => rw [hk1] at hk; cases hk
      | some R1 =>
        rw [hk1] at hk
        rcases ihc n m A R1 hm hw hp.1 hk1 with ⟨l, h1⟩ | ⟨m1, h1, g1, w1⟩
        · exact .inl ⟨by omega, by simp only [Stmt.exec, h1, ok_bind_false, pure_def]⟩
        · cases R1 with
          | unreached => exact w1.elim
          | within W =>
            rcases ihd n m1 W R g1 w1 hp.2 hk with ⟨l, h2⟩ | ⟨m2, h2, g2⟩
            · exact .inl ⟨by omega, by simp only [Stmt.exec, h1, ok_bind_false, h2]⟩
            · exact .inr ⟨m2, by simp only [Stmt.exec, h1, ok_bind_false, h2], g2⟩
  | @iteTrue op e1 e2 c d s s' p q h1 h2 hb hc ih =>
    obtain ⟨N, ih⟩ := ih
    refine ⟨N + 1, fun n m A R hm hw hp hk => ?_⟩
    cases n with
    | zero => exact .inl ⟨by omega, rfl⟩
    | succ n =>
      simp only [Stmt.check] at hk
      split_ifs at hk with hcb
      obtain ⟨b, ht, hbt⟩ := Stmt.test_size hm hw hp.1 hp.2.1 h1 h2 hcb
      have hbt := hbt.2 hb
      subst hbt
      split at hk
      · rename_i o1 o2 k1 k2
        simp only [Option.some.injEq] at hk
        subst hk
        rcases ih n m A o1 hm hw hp.2.2.1 k1 with ⟨l, h3⟩ | ⟨m', h3, h4, h5⟩
        · exact .inl ⟨by omega, by simp only [Stmt.exec, ht, ok_bind_false, if_true, h3]⟩
        · exact .inr ⟨m', by simp only [Stmt.exec, ht, ok_bind_false, if_true, h3], h4,
            After.join_left h5⟩
      · cases hk
  | @iteFalse op e1 e2 c d s s' p q h1 h2 hb hd ih =>
    obtain ⟨N, ih⟩ := ih
    refine ⟨N + 1, fun n m A R hm hw hp hk => ?_⟩
    cases n with
    | zero => exact .inl ⟨by omega, rfl⟩
    | succ n =>
      simp only [Stmt.check] at hk
      split_ifs at hk with hcb
      obtain ⟨b, ht, hbt⟩ := Stmt.test_size hm hw hp.1 hp.2.1 h1 h2 hcb
      have hbt := mt hbt.1 hb
      simp only [Bool.not_eq_true] at hbt
      subst hbt
      split at hk
      · rename_i o1 o2 k1 k2
        simp only [Option.some.injEq] at hk
        subst hk
        rcases ih n m A o2 hm hw hp.2.2.2 k2 with ⟨l, h3⟩ | ⟨m', h3, h4, h5⟩
        · exact .inl ⟨by omega, by
            simp only [Stmt.exec, ht, ok_bind_false, Bool.false_eq_true, if_false, h3]⟩
        · exact .inr ⟨m', by
            simp only [Stmt.exec, ht, ok_bind_false, Bool.false_eq_true, if_false, h3], h4,
            After.join_right h5⟩
      · cases hk
  | @loopTrue op e1 e2 c s s1 s2 p q h1 h2 hb hc hl ihc ihl =>
    obtain ⟨N1, ihc⟩ := ihc
    obtain ⟨N2, ihl⟩ := ihl
    refine ⟨max N1 N2 + 1, fun n m A R hm hw hp hk => ?_⟩
    cases n with
    | zero => exact .inl ⟨by omega, rfl⟩
    | succ n =>
      simp only [Stmt.check] at hk
      split_ifs at hk with hcb
      obtain ⟨b, ht, hbt⟩ := Stmt.test_size hm hw hp.1 hp.2.1 h1 h2 hcb
      have hbt := hbt.2 hb
      subst hbt
      cases hk1 : c.check Γ n A with
      | none => rw [hk1] at hk; cases hk
      | some R1 =>
        rw [hk1] at hk
        rcases ihc n m A R1 hm hw hp.2.2 hk1 with ⟨l, h3⟩ | ⟨m1, h3, g1, w1⟩
        · exact .inl ⟨by omega, by simp only [Stmt.exec, ht, ok_bind_false, if_true, h3, pure_def]⟩
        · cases R1 with
          | unreached => exact w1.elim
          | within W =>
            simp only [Option.map_eq_some_iff] at hk
            obtain ⟨R2, hR2, rfl⟩ := hk
            rcases ihl n m1 W R2 g1 w1 hp hR2 with ⟨l, h4⟩ | ⟨m2, h4, g2, w2⟩
            · exact .inl ⟨by omega, by
                simp only [Stmt.exec, ht, ok_bind_false, if_true, h3, h4]⟩
            · exact .inr ⟨m2, by simp only [Stmt.exec, ht, ok_bind_false, if_true, h3, h4], g2,
                After.join_right w2⟩
  | @loopFalse op e1 e2 c s p q h1 h2 hb =>
    refine ⟨1, fun n m A R hm hw hp hk => ?_⟩
    cases n with
    | zero => exact .inl ⟨by omega, rfl⟩
    | succ n =>
      simp only [Stmt.check] at hk
      split_ifs at hk with hcb
      obtain ⟨b, ht, hbt⟩ := Stmt.test_size hm hw hp.1 hp.2.1 h1 h2 hcb
      have hbt := mt hbt.1 hb
      simp only [Bool.not_eq_true] at hbt
      subst hbt
      refine .inr ⟨m, by
        simp only [Stmt.exec, ht, ok_bind_false, Bool.false_eq_true, if_false, pure_def], hm, ?_⟩
      cases hk1 : c.check Γ n A with
      | none => rw [hk1] at hk; cases hk
      | some R1 =>
        rw [hk1] at hk
        cases R1 with
        | unreached => cases hk; exact hw
        | within W =>
          simp only [Option.map_eq_some_iff] at hk
          obtain ⟨R2, hR2, rfl⟩ := hk
          exact After.join_left hw

/-- A program without loops does not run out of steps. -/
theorem Stmt.LoopFree.completes {P : Stmt} (hl : P.LoopFree) {n : ℕ} (h : P.depth ≤ n) :
    ¬ P.exec Γ n m ⇓ none := by
  induction P generalizing n m with
  | skip => cases n <;> simp_all [Stmt.depth, Stmt.exec, pure_def]
  | assign x e =>
    cases n with
    | zero => simp [Stmt.depth] at h
    | succ n =>
      intro h'
      simp only [Stmt.exec] at h'
      split at h'
      · simp only [bind_eq_clean, pure_eq_ok, reduceCtorEq, false_and, and_false,
          exists_false] at h'
      · cases h'
  | compound op x e =>
    cases n with
    | zero => simp [Stmt.depth] at h
    | succ n =>
      intro h'
      simp only [Stmt.exec] at h'
      split at h'
      · simp only [bind_eq_clean, pure_eq_ok, reduceCtorEq, false_and, and_false,
          exists_false] at h'
      · cases h'
  | call f x e =>
    cases n with
    | zero => simp [Stmt.depth] at h
    | succ n =>
      intro h'
      simp only [Stmt.exec] at h'
      split at h'
      · split at h'
        · simp only [bind_eq_clean, pure_eq_ok, reduceCtorEq, false_and, and_false,
            exists_false] at h'
        · cases h'
      · cases h'
  | seq c d ihc ihd =>
    cases n with
    | zero => simp [Stmt.depth] at h
    | succ n =>
      intro h'
      simp only [Stmt.depth] at h
      simp only [Stmt.exec] at h'
      obtain ⟨r, hr, h'⟩ := bind_eq_clean.1 h'
      cases r with
      | none => exact ihc hl.1 (by omega) hr
      | some m' => exact ihd hl.2 (by omega) h'
  | ite op e1 e2 c d ihc ihd =>
    cases n with
    | zero => simp [Stmt.depth] at h
    | succ n =>
      intro h'
      simp only [Stmt.depth] at h
      simp only [Stmt.exec] at h'
      obtain ⟨r, hr, h'⟩ := bind_eq_clean.1 h'
      split_ifs at h'
      · exact ihc hl.1 (by omega) h'
      · exact ihd hl.2 (by omega) h'
  | loop => exact hl.elim

/-! ### Accepted programs compile -/

theorem convert_converts (hc : Size.convert l r a = some c) : l.converts r = true := by
  unfold Size.convert at hc
  split at hc
  all_goals try split_ifs at hc with h
  all_goals try cases hc
  all_goals first
    | rfl
    | (simp only [Ty.converts, decide_eq_true_eq]; first | exact h.1 | exact h)

theorem compound_compounds {op : ArithOp} (hc : Size.compound op l r a b = some c) :
    l.compounds r = true := by
  unfold Size.compound at hc
  dsimp only at hc
  split at hc
  · rfl
  · split_ifs at hc with h
    simp only [Ty.compounds, resolveAssign_eq, h, if_true]
  · simp only [Ty.compounds, resolveAssign_eq]
  · cases hc

theorem compares_compares {op : CmpOp} (hc : Size.compares op l r a b = true) :
    l.compares r = true := by
  unfold Size.compares at hc
  dsimp only at hc
  split at hc
  · rfl
  · simp only [Bool.and_eq_true, decide_eq_true_eq] at hc
    simp only [Ty.compares, resolveCmp_eq, hc.1.1, if_true]
  · simp only [Ty.compares, resolveCmp_eq]
  · simp only [Ty.compares, resolveCmp_eq]
  · cases hc

theorem checks_compares {op : CmpOp} {e1 e2 : VExpr} (hc : VExpr.checks Γ A op e1 e2 = true) :
    ∃ a b, e1.ty Γ = some a ∧ e2.ty Γ = some b ∧ a.compares b = true := by
  unfold VExpr.checks at hc
  split at hc
  · rename_i t t' a b ht ht' ha hb
    exact ⟨t, t', ht, ht', compares_compares hc⟩
  · cases hc

theorem Stmt.check_compiles {P : Stmt} {n : ℕ} {R : After} (hk : P.check Γ n A = some R)
    (hn : P.depth ≤ n) : P.Compiles Γ ∧ ∃ B, R = .within B := by
  induction P generalizing n A R with
  | skip =>
    cases n with
    | zero => simp [Stmt.depth] at hn
    | succ n => cases hk; exact ⟨trivial, _, rfl⟩
  | assign x e =>
    cases n with
    | zero => simp [Stmt.depth] at hn
    | succ n =>
      simp only [Stmt.check, Option.bind_eq_some_iff, Option.map_eq_some_iff] at hk
      obtain ⟨t, ht, a, ha, b, hb, rfl⟩ := hk
      exact ⟨⟨t, ht, convert_converts hb⟩, _, rfl⟩
  | compound op x e =>
    cases n with
    | zero => simp [Stmt.depth] at hn
    | succ n =>
      simp only [Stmt.check, Option.bind_eq_some_iff, Option.map_eq_some_iff] at hk
      obtain ⟨t, ht, a, ha, b, hb, rfl⟩ := hk
      exact ⟨⟨t, ht, compound_compounds hb⟩, _, rfl⟩
  | call f x e =>
    cases n with
    | zero => simp [Stmt.depth] at hn
    | succ n =>
      simp only [Stmt.check, Option.bind_eq_some_iff, Option.map_eq_some_iff] at hk
      obtain ⟨t, ht, t', ht', a, ha, b, hb, c, hc, rfl⟩ := hk
      exact ⟨⟨t, t', ht, ht', convert_converts hc⟩, _, rfl⟩
  | seq c d ihc ihd =>
    cases n with
    | zero => simp [Stmt.depth] at hn
    | succ n =>
      simp only [Stmt.depth] at hn
      simp only [Stmt.check] at hk
      cases hk1 : c.check Γ n A with
      | none => rw [hk1] at hk; cases hk
      | some R1 =>
        rw [hk1] at hk
        obtain ⟨h1, B, rfl⟩ := ihc hk1 (by omega)
        obtain ⟨h2, h3⟩ := ihd hk (by omega)
        exact ⟨⟨h1, h2⟩, h3⟩
  | ite op e1 e2 c d ihc ihd =>
    cases n with
    | zero => simp [Stmt.depth] at hn
    | succ n =>
      simp only [Stmt.depth] at hn
      simp only [Stmt.check] at hk
      split_ifs at hk with hcb
      split at hk
      · rename_i o1 o2 k1 k2
        simp only [Option.some.injEq] at hk
        subst hk
        obtain ⟨h1, B1, rfl⟩ := ihc k1 (by omega)
        obtain ⟨h2, B2, rfl⟩ := ihd k2 (by omega)
        exact ⟨⟨checks_compares hcb, h1, h2⟩, _, rfl⟩
      · cases hk
  | loop op e1 e2 c ih =>
    cases n with
    | zero => simp [Stmt.depth] at hn
    | succ n =>
      simp only [Stmt.depth] at hn
      simp only [Stmt.check] at hk
      split_ifs at hk with hcb
      cases hk1 : c.check Γ n A with
      | none => rw [hk1] at hk; cases hk
      | some R1 =>
        rw [hk1] at hk
        obtain ⟨h1, B, rfl⟩ := ih hk1 (by omega)
        simp only [Option.map_eq_some_iff] at hk
        obtain ⟨R2, hR2, rfl⟩ := hk
        refine ⟨⟨checks_compares hcb, h1⟩, ?_⟩
        cases R2 <;> exact ⟨_, rfl⟩

/-! ### Integers -/

theorem room_iff {T : IntTy} {k : ℕ} : Room T k false ↔ T.InRange k := by
  unfold Room IntTy.InRange
  have := T.min_le_zero
  simp only [Bool.false_eq_true, false_implies, and_true]
  omega

end Ieme.Overload
