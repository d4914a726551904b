import Verif.Spec.Policy
import Verif.Lemmas.Range
import Verif.Lemmas.MixedNumber
import Verif.Lemmas.ParseValue
import Verif.Lemmas.FloatField
import Verif.Lemmas.Chrono

/-!
# Lemmas on user-defined policies
-/

namespace Ieme

open Res IntTy

namespace Policy

variable {p : Policy} {T W F S : IntTy}

theorem fArith_self (op : ArithOp) (a : Args) : p.fArith T T op a = p.arith T op a := by
  simp only [fArith, Fraction.toCommon_self, ok_bind_false, IntTy.common_self]

theorem fCmp_self (op : CmpOp) (a : Args) : p.fCmp T T op a = p.cmp T op a := by
  simp only [fCmp, Fraction.toCommon_self, ok_bind_false, IntTy.common_self]

theorem assignF_self (op : ArithOp) (l r : Raw) :
    p.assignF T T op l r = p.arith T op (.ff l r) := by rw [assignF, if_pos rfl, fArith_self]

theorem assignR_self (op : ArithOp) (l : Raw) (r : ℤ) :
    p.assignR T T op l r = p.arith T op (.fr l r) := by rw [assignR, if_pos rfl, fArith_self]

/-! ## The library's policies -/

theorem ofOps_reducedInput (o : Ops) (mode : ReduceMode) :
    ofOps (.reducedInput o mode) = (ofOps o).reducedInput mode := by
  simp only [ofOps, reducedInput, Policy.mk.injEq]
  exact ⟨rfl, rfl, rfl⟩

theorem ofOps_reducedOutput (o : Ops) (mode : ReduceMode) :
    ofOps (.reducedOutput o mode) = (ofOps o).reducedOutput mode := by
  simp only [ofOps, reducedOutput, Policy.mk.injEq]
  exact ⟨rfl, rfl, rfl⟩

theorem ofOps_sound (o : Ops) : (ofOps o).Sound where
  negate hv hx h := ⟨Ops.negate_inRange hv h, Ops.negate_exact hx h⟩
  arith ha hx hq h := ⟨Ops.arith_inRange ha h, (Ops.arith_exact hx h).value hq⟩

theorem ofOps_eval (o : Ops) (e : Expr) : (ofOps o).eval T e = e.eval T o := by
  induction e with
  | lit f => rfl
  | neg e ih => simp only [eval, Expr.eval, ih]; rfl
  | pos e ih => simp only [eval, Expr.eval, ih]
  | ff op l r ih1 ih2 => simp only [eval, Expr.eval, ih1, ih2]; rfl
  | fr op e n ih => simp only [eval, Expr.eval, ih]; rfl
  | rf op n e ih => simp only [eval, Expr.eval, ih]; rfl

theorem ofOps_run (o : Ops) (l : List Assign) (f : Raw) :
    (ofOps o).run T f l = Assign.run T o f l := by
  induction l generalizing f with
  | nil => rfl
  | cons s l ih =>
    simp only [run, Assign.run, ih]
    cases s <;> rfl

theorem ofOps_mEval (o : Ops) (e : MExpr) : (ofOps o).mEval e = e.eval o := by
  induction e with
  | dflt W F => rfl
  | mk W F w f => rfl
  | ofFraction W F S f => rfl
  | pos e ih => simp only [mEval, MExpr.eval, ih]
  | neg e ih => simp only [mEval, MExpr.eval, ih]; rfl
  | add l r ih1 ih2 => simp only [mEval, MExpr.eval, ih1, ih2]; rfl
  | addFraction e S f ih => simp only [mEval, MExpr.eval, ih]; rfl
  | addWhole e S n ih => simp only [mEval, MExpr.eval, ih]; rfl

/-! ## Wrapping -/

theorem canonical_int (n : ℤ) : Canonical ⟨n, 1⟩ := ⟨one_pos, by simp⟩

theorem _root_.Ieme.Args.reduce_canonical {a b : Args} {x y : ℚ} (ha : a.Denote x y)
    (h : a.reduce T .normalizeSigns ⇓ b) : Canonical b.left ∧ Canonical b.right := by
  cases a with
  | ff l r =>
    obtain ⟨l', h1, h⟩ := bind_eq_clean.1 h
    obtain ⟨r', h2, h⟩ := bind_eq_clean.1 h
    obtain rfl := (pure_eq_ok.1 h).1
    exact ⟨Raw.reduce_canonical ha.1.1 h1, Raw.reduce_canonical ha.2.1 h2⟩
  | fr l r =>
    obtain ⟨l', h1, h⟩ := bind_eq_clean.1 h
    obtain rfl := (pure_eq_ok.1 h).1
    exact ⟨Raw.reduce_canonical ha.1.1 h1, canonical_int r⟩
  | rf l r =>
    obtain ⟨r', h1, h⟩ := bind_eq_clean.1 h
    obtain rfl := (pure_eq_ok.1 h).1
    exact ⟨canonical_int l, Raw.reduce_canonical ha.2.1 h1⟩

/-! ## Sound policies -/

namespace Sound

variable {f g r : Raw} {n : ℤ} {x y q : ℚ}

theorem minus_int (hp : p.Sound) (hf : f.InRange T) (hn : T.InRange n) (hx : Denotes f x)
    (h : p.fArith T T .minus (.fr f n) ⇓ r) : r.InRange T ∧ Denotes r (x - n) := by
  rw [fArith_self] at h
  exact hp.arith (a := .fr f n) ⟨hf, hn⟩ ⟨hx, rfl⟩ rfl h

theorem times_int (hp : p.Sound) (hf : f.InRange T) (hn : T.InRange n) (hx : Denotes f x)
    (h : p.fArith T T .multiplies (.fr f n) ⇓ r) : r.InRange T ∧ Denotes r (x * n) := by
  rw [fArith_self] at h
  exact hp.arith (a := .fr f n) ⟨hf, hn⟩ ⟨hx, rfl⟩ rfl h

theorem int_plus (hp : p.Sound) (hn : T.InRange n) (hf : f.InRange T) (hx : Denotes f x)
    (h : p.fArith T T .plus (.rf n f) ⇓ r) : r.InRange T ∧ Denotes r (n + x) := by
  rw [fArith_self] at h
  exact hp.arith (a := .rf n f) ⟨hn, hf⟩ ⟨rfl, hx⟩ rfl h

theorem int_times (hp : p.Sound) (hn : T.InRange n) (hf : f.InRange T) (hx : Denotes f x)
    (h : p.fArith T T .multiplies (.rf n f) ⇓ r) : r.InRange T ∧ Denotes r (n * x) := by
  rw [fArith_self] at h
  exact hp.arith (a := .rf n f) ⟨hn, hf⟩ ⟨rfl, hx⟩ rfl h

theorem plus (hp : p.Sound) (hf : f.InRange T) (hg : g.InRange T) (hx : Denotes f x)
    (hy : Denotes g y) (h : p.fArith T T .plus (.ff f g) ⇓ r) :
    r.InRange T ∧ Denotes r (x + y) := by
  rw [fArith_self] at h
  exact hp.arith (a := .ff f g) ⟨hf, hg⟩ ⟨hx, hy⟩ rfl h

theorem times (hp : p.Sound) (hf : f.InRange T) (hg : g.InRange T) (hx : Denotes f x)
    (hy : Denotes g y) (h : p.fArith T T .multiplies (.ff f g) ⇓ r) :
    r.InRange T ∧ Denotes r (x * y) := by
  rw [fArith_self] at h
  exact hp.arith (a := .ff f g) ⟨hf, hg⟩ ⟨hx, hy⟩ rfl h

theorem over (hp : p.Sound) (hf : f.InRange T) (hg : g.InRange T) (hx : Denotes f x)
    (hy : Denotes g y) (h0 : y ≠ 0) (h : p.fArith T T .divides (.ff f g) ⇓ r) :
    r.InRange T ∧ Denotes r (x / y) := by
  rw [fArith_self] at h
  exact hp.arith (a := .ff f g) ⟨hf, hg⟩ ⟨hx, hy⟩ (op := .divides) (if_neg h0) h

theorem eval (hp : p.Sound) : ∀ {e : Expr} {r : Raw} {q : ℚ}, e.LeavesInRange T →
    p.eval T e ⇓ r → e.value = some q → r.InRange T ∧ Denotes r q
  | .lit f, r, q, hl, h, hv => by
    obtain rfl := (pure_eq_ok.1 h).1
    simp only [Expr.value, litValue] at hv
    split at hv
    · cases hv
    · rename_i hd
      exact ⟨hl, hd, Option.some.inj hv⟩
  | .neg e, r, q, hl, h, hv => by
    obtain ⟨v, h1, h2⟩ := bind_eq_clean.1 h
    simp only [Expr.value, Option.map_eq_some_iff] at hv
    obtain ⟨x, hx, rfl⟩ := hv
    obtain ⟨a, b⟩ := eval hp (e := e) hl h1 hx
    exact hp.negate a b h2
  | .pos e, r, q, hl, h, hv => by
    obtain ⟨v, h1, h2⟩ := bind_eq_clean.1 h
    obtain rfl := (pure_eq_ok.1 h2).1
    exact eval hp (e := e) hl h1 hv
  | .ff op e1 e2, r, q, hl, h, hv => by
    obtain ⟨v1, h1, h⟩ := bind_eq_clean.1 h
    obtain ⟨v2, h2, h⟩ := bind_eq_clean.1 h
    rw [fArith_self] at h
    simp only [Expr.value, Option.bind_eq_some_iff] at hv
    obtain ⟨x, hx, y, hy, hv⟩ := hv
    obtain ⟨a1, b1⟩ := eval hp (e := e1) hl.1 h1 hx
    obtain ⟨a2, b2⟩ := eval hp (e := e2) hl.2 h2 hy
    exact hp.arith (a := .ff v1 v2) ⟨a1, a2⟩ ⟨b1, b2⟩ hv h
  | .fr op e n, r, q, hl, h, hv => by
    obtain ⟨v1, h1, h⟩ := bind_eq_clean.1 h
    rw [fArith_self] at h
    simp only [Expr.value, Option.bind_eq_some_iff] at hv
    obtain ⟨x, hx, hv⟩ := hv
    obtain ⟨a1, b1⟩ := eval hp (e := e) hl.1 h1 hx
    exact hp.arith (a := .fr v1 n) ⟨a1, hl.2⟩ ⟨b1, rfl⟩ hv h
  | .rf op n e, r, q, hl, h, hv => by
    obtain ⟨v1, h1, h⟩ := bind_eq_clean.1 h
    rw [fArith_self] at h
    simp only [Expr.value, Option.bind_eq_some_iff] at hv
    obtain ⟨x, hx, hv⟩ := hv
    obtain ⟨a1, b1⟩ := eval hp (e := e) hl.2 h1 hx
    exact hp.arith (a := .rf n v1) ⟨hl.1, a1⟩ ⟨rfl, b1⟩ hv h

theorem run (hp : p.Sound) : ∀ {l : List Assign} {f r : Raw} {x q : ℚ}, f.InRange T →
    Denotes f x → (∀ a ∈ l, a.InRange T) → p.run T f l ⇓ r → Assign.values x l = some q →
    r.InRange T ∧ Denotes r q
  | [], f, r, x, q, hf, hx, _, h, hv => by
    obtain rfl := (pure_eq_ok.1 h).1
    obtain rfl := Option.some.inj hv
    exact ⟨hf, hx⟩
  | s :: l, f, r, x, q, hf, hx, hl, h, hv => by
    obtain ⟨g, h1, h⟩ := bind_eq_clean.1 h
    simp only [Assign.values, Option.bind_eq_some_iff] at hv
    obtain ⟨y, hy, hv⟩ := hv
    have hs := hl s List.mem_cons_self
    have hg : g.InRange T ∧ Denotes g y := by
      cases s with
      | frac op b =>
        simp only [Assign.value, litValue, Option.bind_eq_some_iff] at hy
        obtain ⟨z, hz, hy⟩ := hy
        split at hz
        · cases hz
        · rename_i hd
          rw [step, assignF_self] at h1
          exact hp.arith (a := .ff f b) ⟨hf, hs⟩ ⟨hx, hd, Option.some.inj hz⟩ hy h1
      | int op b =>
        rw [step, assignR_self] at h1
        exact hp.arith (a := .fr f b) ⟨hf, hs⟩ ⟨hx, rfl⟩ hy h1
    exact run hp (l := l) hg.1 hg.2 (fun a ha => hl a (List.mem_cons_of_mem _ ha)) h hv

/-! ## Mixed numbers -/

/-- Everything about the constructor from a whole part and a fraction. -/
theorem mk_ok (hp : p.Sound) {w : ℤ} {f : Raw} {m : Mixed} (hW : W.InRange w) (hf : f.InRange F)
    (h : p.mk' W F w f ⇓ m) : f.den ≠ 0 ∧ m.Invariant ∧ m.InRange W F ∧
      ∀ x, Ieme.Denotes f x → m.Denotes (w + x) := by
  obtain ⟨m1, h1, h2⟩ := bind_eq_clean.1 h
  -- first step
  have s1 : f.den ≠ 0 ∧ m1.InRange W F ∧ ∀ x, Ieme.Denotes f x →
      ∃ y, Ieme.Denotes m1.frac y ∧ |y| < 1 ∧ (m1.whole : ℚ) + y = w + x := by
    obtain ⟨i, hi, h1⟩ := bind_eq_clean.1 h1
    have hi' := Raw.isImproper_clean hi
    simp only at h1 hi'
    split at h1
    · obtain ⟨t, ht, h1⟩ := bind_eq_clean.1 h1
      obtain ⟨t', ht', h1⟩ := bind_eq_clean.1 h1
      obtain ⟨w', hw', h1⟩ := bind_eq_clean.1 h1
      obtain ⟨g, hg, h1⟩ := bind_eq_clean.1 h1
      obtain rfl := (pure_eq_ok.1 h1).1
      have hd : f.den ≠ 0 := (div_clean.1 ht).1
      have htr : F.InRange t := div_inRange ht
      rw [assignR_self] at hg
      have key := fun x (hx : Ieme.Denotes f x) =>
        hp.arith (a := .fr f t) (op := .minus) ⟨hf, htr⟩ ⟨hx, rfl⟩ rfl hg
      obtain ⟨-, rfl⟩ := conv_clean.1 ht'
      obtain ⟨hwr, rfl⟩ := add_clean.1 hw'
      refine ⟨hd, ⟨hwr, (key _ (denotes_self hd)).1⟩, fun x hx => ?_⟩
      obtain ⟨rfl, -⟩ := Fraction.trunc_ok hx ht
      exact ⟨_, (key x hx).2, (sub_ratTrunc x).1, by push_cast; ring⟩
    · rename_i hc
      obtain rfl := (pure_eq_ok.1 h1).1
      have hlt : |f.num| < |f.den| := by
        by_contra hcon
        rw [hi'] at hc
        simp [hcon] at hc
      refine ⟨fun h0 => ?_, ⟨hW, hf⟩, fun x hx => ⟨x, hx, (Raw.abs_lt_iff hx).2 hlt, rfl⟩⟩
      rw [h0] at hlt
      have := abs_nonneg f.num
      simp only [abs_zero] at hlt
      omega
  obtain ⟨hd, hr, hv⟩ := s1
  obtain ⟨y, hy, hy1, hyv⟩ := hv _ (denotes_self hd)
  -- second step
  have s2 : m.InRange W F ∧ ∃ z, Ieme.Denotes m.frac z ∧ |z| < 1 ∧ (0 < m.whole → 0 ≤ z) ∧
      (m.whole < 0 → z ≤ 0) ∧ (m.whole : ℚ) + z = m1.whole + y := by
    unfold fixSigns at h2
    rw [abs_lt] at hy1
    split at h2
    · rename_i hc
      rw [isNegative_iff hy] at hc
      obtain ⟨w', hw', h2⟩ := bind_eq_clean.1 h2
      obtain ⟨g, hg, h2⟩ := bind_eq_clean.1 h2
      obtain rfl := (pure_eq_ok.1 h2).1
      obtain ⟨hwr, rfl⟩ := sub_clean.1 hw'
      obtain ⟨hgr, hgv⟩ := hp.int_plus inRange_one hr.2 hy hg
      push_cast at hgv
      exact ⟨⟨hwr, hgr⟩, _, hgv, by rw [abs_lt]; constructor <;> linarith, fun _ => by linarith,
        fun hneg => by simp only at hneg; omega, by push_cast; ring⟩
    · split at h2
      · rename_i _ hc
        rw [isPositive_iff hy] at hc
        obtain ⟨w', hw', h2⟩ := bind_eq_clean.1 h2
        obtain ⟨n, hn, h2⟩ := bind_eq_clean.1 h2
        obtain ⟨g, hg, h2⟩ := bind_eq_clean.1 h2
        obtain rfl := (pure_eq_ok.1 h2).1
        obtain ⟨hwr, rfl⟩ := add_clean.1 hw'
        obtain ⟨hnr, rfl⟩ := neg_clean.1 hn
        obtain ⟨hgr, hgv⟩ := hp.int_plus hnr hr.2 hy hg
        push_cast at hgv
        exact ⟨⟨hwr, hgr⟩, _, hgv, by rw [abs_lt]; constructor <;> linarith,
          fun hpos => by simp only at hpos; omega, fun _ => by linarith, by push_cast; ring⟩
      · rename_i c1 c2
        obtain rfl := (pure_eq_ok.1 h2).1
        rw [isNegative_iff hy] at c1
        rw [isPositive_iff hy] at c2
        refine ⟨hr, y, hy, by rw [abs_lt]; exact hy1, fun h => ?_, fun h => ?_, rfl⟩
        · by_contra hc; exact c1 ⟨h, not_le.1 hc⟩
        · by_contra hc; exact c2 ⟨h, not_le.1 hc⟩
  obtain ⟨hmr, z, hz, hz1, hz2, hz3, hzv⟩ := s2
  refine ⟨hd, ⟨z, hz, hz1, hz2, hz3⟩, hmr, fun x hx => ⟨z, hz, ?_⟩⟩
  rw [hzv, hyv, ← hx.2]

/-- Everything about the constructor from a fraction. -/
theorem ofFraction_ok (hp : p.Sound) {f : Raw} {m : Mixed} (hf : f.InRange S)
    (h : p.ofFraction W F S f ⇓ m) : f.den ≠ 0 ∧ m.Invariant ∧ m.InRange W F ∧
      ∀ x, Ieme.Denotes f x → m.Denotes x := by
  obtain ⟨t, ht, h⟩ := bind_eq_clean.1 h
  have hd : f.den ≠ 0 := (div_clean.1 ht).1
  obtain ⟨w, hw, h⟩ := bind_eq_clean.1 h
  obtain ⟨w', hw', h⟩ := bind_eq_clean.1 h
  obtain ⟨d, hd', h⟩ := bind_eq_clean.1 h
  obtain ⟨g, hg, h5⟩ := bind_eq_clean.1 h
  obtain ⟨hwr, e1⟩ := conv_clean.1 hw
  obtain ⟨hwr', e2⟩ := conv_clean.1 hw'
  obtain ⟨hgr, e3⟩ := Raw.conv_clean.1 hg
  subst e1 e2 e3
  obtain rfl := (pure_eq_ok.1 h5).1
  have key : ∀ x, Ieme.Denotes f x → Ieme.Denotes g (x - w') ∧ w' = ratTrunc x := fun x hx =>
    ⟨(hp.minus_int hf hwr' hx hd').2, (Fraction.trunc_ok hx ht).1⟩
  obtain ⟨k1, k2⟩ := key _ (denotes_self hd)
  have k3 := sub_ratTrunc ((f.num : ℚ) / f.den)
  rw [← k2] at k3
  exact ⟨hd, ⟨_, k1, k3⟩, ⟨hwr, hgr⟩, fun x hx => ⟨_, (key x hx).1, by push_cast; ring⟩⟩

theorem mNeg_ok (hp : p.Sound) {m m' : Mixed} {q : ℚ} (hm : m.InRange W F) (hq : m.Denotes q)
    (h : p.mNeg W F m ⇓ m') : m'.Invariant ∧ m'.InRange W F ∧ m'.Denotes (-q) := by
  obtain ⟨w, hw, h⟩ := bind_eq_clean.1 h
  obtain ⟨f, hf, h⟩ := bind_eq_clean.1 h
  obtain ⟨hr, rfl⟩ := neg_clean.1 hw
  obtain ⟨y, hy, rfl⟩ := hq
  obtain ⟨a, b⟩ := hp.negate hm.2 hy hf
  obtain ⟨-, hi, hr', hv⟩ := mk_ok hp hr a h
  have := hv _ b
  push_cast at this
  exact ⟨hi, hr', by rwa [neg_add]⟩

theorem mAdd_ok (hp : p.Sound) {W₁ F₁ W₂ F₂ : IntTy} {l r m : Mixed} {x y : ℚ}
    (hx : l.Denotes x) (hy : r.Denotes y) (h : p.mAdd W₁ F₁ W₂ F₂ l r ⇓ m) : m.Invariant ∧
      m.InRange (IntTy.common W₁ W₂) (IntTy.common F₁ F₂) ∧ m.Denotes (x + y) := by
  obtain ⟨lw, hlw, h⟩ := bind_eq_clean.1 h
  obtain ⟨rw', hrw, h⟩ := bind_eq_clean.1 h
  obtain ⟨w, hw, h⟩ := bind_eq_clean.1 h
  obtain ⟨lf, hlf, h⟩ := bind_eq_clean.1 h
  obtain ⟨rf, hrf, h⟩ := bind_eq_clean.1 h
  obtain ⟨f, hf, h6⟩ := bind_eq_clean.1 h
  obtain ⟨-, e1⟩ := conv_clean.1 hlw
  obtain ⟨-, e2⟩ := conv_clean.1 hrw
  obtain ⟨r1, e3⟩ := Raw.conv_clean.1 hlf
  obtain ⟨r2, e4⟩ := Raw.conv_clean.1 hrf
  obtain ⟨hr, e5⟩ := add_clean.1 hw
  subst e1 e2 e3 e4 e5
  obtain ⟨x, hx, rfl⟩ := hx
  obtain ⟨y, hy, rfl⟩ := hy
  obtain ⟨a, b⟩ := hp.plus r1 r2 hx hy hf
  obtain ⟨-, hi, hr', hv⟩ := mk_ok hp hr a h6
  have := hv _ b
  push_cast at this
  refine ⟨hi, hr', ?_⟩
  convert this using 1
  ring

theorem mAddWhole_ok (hp : p.Sound) {W₁ W₂ : IntTy} {l m : Mixed} {n : ℤ} {x : ℚ}
    (hl : l.frac.InRange F) (hx : l.Denotes x) (h : p.mAddWhole W₁ F W₂ l n ⇓ m) :
    m.Invariant ∧ m.InRange (IntTy.common W₁ W₂) F ∧ m.Denotes (x + n) := by
  obtain ⟨lw, hlw, h⟩ := bind_eq_clean.1 h
  obtain ⟨rw', hrw, h⟩ := bind_eq_clean.1 h
  obtain ⟨w, hw, h⟩ := bind_eq_clean.1 h
  obtain ⟨-, e1⟩ := conv_clean.1 hlw
  obtain ⟨-, e2⟩ := conv_clean.1 hrw
  obtain ⟨hr, e5⟩ := add_clean.1 hw
  subst e1 e2 e5
  obtain ⟨x, hx, rfl⟩ := hx
  obtain ⟨-, hi, hr', hv⟩ := mk_ok hp hr hl h
  have := hv _ hx
  push_cast at this
  refine ⟨hi, hr', ?_⟩
  convert this using 1
  ring

theorem mEval (hp : p.Sound) {e : MExpr} {m : Mixed} (ht : e.AllInRange) (h : p.mEval e ⇓ m) :
    m.Invariant ∧ m.InRange e.ty.1 e.ty.2 ∧ ∃ q, e.value = some q ∧ m.Denotes q := by
  induction e generalizing m with
  | dflt W F =>
    obtain rfl := (pure_eq_ok.1 h).1
    have hz : Ieme.Denotes (Fraction.default) 0 := ⟨by decide, by simp [Fraction.default]⟩
    exact ⟨⟨0, hz, by simp, fun _ => le_refl _, fun _ => le_refl _⟩,
      ⟨inRange_zero, inRange_zero, inRange_one⟩, 0, rfl, 0, hz, by simp [Mixed.default]⟩
  | mk W F w f =>
    obtain ⟨hd, hi, hr, hv⟩ := mk_ok hp ht.1 ht.2 h
    exact ⟨hi, hr, _, by rw [MExpr.value, litValue_of hd]; rfl, hv _ (denotes_self hd)⟩
  | ofFraction W F S f =>
    obtain ⟨hd, hi, hr, hv⟩ := ofFraction_ok hp ht h
    exact ⟨hi, hr, _, litValue_of hd, hv _ (denotes_self hd)⟩
  | pos e ih =>
    obtain ⟨m1, h1, h2⟩ := bind_eq_clean.1 h
    obtain rfl := (pure_eq_ok.1 h2).1
    exact ih ht h1
  | neg e ih =>
    obtain ⟨m1, h1, h2⟩ := bind_eq_clean.1 h
    obtain ⟨-, hr, q, hq, hq'⟩ := ih ht h1
    obtain ⟨hi, hr', hv⟩ := mNeg_ok hp hr hq' h2
    exact ⟨hi, hr', -q, by rw [MExpr.value, hq]; rfl, hv⟩
  | add l r ihl ihr =>
    obtain ⟨m1, h1, h2⟩ := bind_eq_clean.1 h
    obtain ⟨m2, h2, h3⟩ := bind_eq_clean.1 h2
    obtain ⟨-, -, a, ha, ha'⟩ := ihl ht.1 h1
    obtain ⟨-, -, b, hb, hb'⟩ := ihr ht.2 h2
    obtain ⟨hi, hr, hv⟩ := mAdd_ok hp ha' hb' h3
    exact ⟨hi, hr, a + b, by rw [MExpr.value, ha, hb]; rfl, hv⟩
  | addFraction e S f ih =>
    obtain ⟨m1, h1, h2⟩ := bind_eq_clean.1 h
    obtain ⟨-, -, q, hq, hq'⟩ := ih ht.1 h1
    obtain ⟨m2, h2, h3⟩ := bind_eq_clean.1 h2
    obtain ⟨hd, -, -, hv⟩ := ofFraction_ok hp ht.2 h2
    obtain ⟨hi, hr, hv'⟩ := mAdd_ok hp hq' (hv _ (denotes_self hd)) h3
    exact ⟨hi, hr, _, by rw [MExpr.value, hq, litValue_of hd]; rfl, hv'⟩
  | addWhole e S n ih =>
    obtain ⟨m1, h1, h2⟩ := bind_eq_clean.1 h
    obtain ⟨-, hr, q, hq, hq'⟩ := ih ht.1 h1
    obtain ⟨hi, hr', hv⟩ := mAddWhole_ok hp hr.2 hq' h2
    exact ⟨hi, hr', _, by rw [MExpr.value, hq]; rfl, hv⟩

/-! ## Strings, floating point, durations -/

theorem scanValue_lit (l : FloatLit) (k : ℤ) : p.scanValue T (Parse.litScan l k) = (do
    let whole ← Parse.digitSequenceToInt T l.whole (l.base : ℤ)
    let num ← Parse.digitSequenceToInt T l.frac (l.base : ℤ)
    let prec ← T.conv k
    let den ← mathPow T (l.base : ℤ) prec
    let e ← Parse.digitSequenceToInt i32 (Parse.expDigits l) 10
    let exponent ← i32.mul
      (if l.exp.elim false (fun e => decide (e.sign = some '-')) then -1 else 1) e
    let sum ← p.fArith T T .plus (.rf whole (Fraction.mk num den))
    let power ← Fraction.pow T (l.expBase : ℤ) exponent
    p.fArith T T .multiplies (.ff sum power)) := by
  unfold Policy.scanValue
  rw [Parse.expBase_eq]
  have : T.conv (Parse.litScan l k).base = .ok (l.base : ℤ) false := Parse.base_small l
  rw [this, ok_bind_false]
  rfl

theorem ofString_lit {l : FloatLit} (hv : l.Valid) (hp : l.point = true) :
    p.ofString T l.render =
      (Parse.precision l.frac >>= fun k => p.scanValue T (Parse.litScan l k)) := by
  unfold Policy.ofString
  rw [Parse.scan_complete hv hp]
  cases hq : Parse.precision l.frac with
  | fault k => simp
  | ok k w =>
    have e : ∀ {α β : Type} (a : α) (f : α → Res β), ((Res.ok a w) >>= f) =
      Res.bind (Res.ok a w) f := fun _ _ => rfl
    simp only [e, Res.bind, Res.pure_def, Bool.or_false]

theorem ofString (hs : p.Sound) {l : FloatLit} (hv : l.Valid) (hp : l.point = true)
    {r : Raw} (h : p.ofString T l.render ⇓ r) : r.InRange T ∧ Denotes r l.value := by
  rw [ofString_lit hv hp] at h
  obtain ⟨k, h1, g1⟩ := bind_eq_clean.1 h
  obtain ⟨k', w', h1', hpc, -⟩ := Parse.precision_ok l.frac
  rw [h1] at h1'
  cases h1'
  have hpc := hpc rfl
  rw [scanValue_lit] at g1
  obtain ⟨whole, h2, g2⟩ := bind_eq_clean.1 g1
  obtain ⟨num, h3, g3⟩ := bind_eq_clean.1 g2
  obtain ⟨prec, h4, g4⟩ := bind_eq_clean.1 g3
  obtain ⟨den, h5, g5⟩ := bind_eq_clean.1 g4
  obtain ⟨e, h6, g6⟩ := bind_eq_clean.1 g5
  obtain ⟨ex, h7, g7⟩ := bind_eq_clean.1 g6
  obtain ⟨sum, h8, g8⟩ := bind_eq_clean.1 g7
  obtain ⟨pw, h9, g9⟩ := bind_eq_clean.1 g8
  have r2 := Parse.digits_all _ _ h2
  have r3 := Parse.digits_all _ _ h3
  have r5 := mathPow_all _ _ h5
  have r9 := Fraction.pow_all _ _ h9
  obtain ⟨-, rfl⟩ := (Parse.digitSequence_clean (Parse.base_nat l) (Parse.whole_seq hv)).1 h2
  obtain ⟨-, rfl⟩ := (Parse.digitSequence_clean (Parse.base_nat l) (Parse.frac_seq hv)).1 h3
  obtain ⟨-, rfl⟩ := conv_clean.1 h4
  have hb := (conv_clean.1 (Parse.base_small (T := T) l)).1
  rw [hpc] at h5
  obtain ⟨-, rfl⟩ := (mathPow_clean hb _).1 h5
  obtain ⟨-, rfl⟩ := (Parse.digitSequence_clean (Or.inl rfl) (Parse.exp_seq hv)).1 h6
  obtain ⟨hir, rfl⟩ := mul_clean.1 h7
  rw [← Parse.expValue_eq] at h9 hir
  have hpow := (C36_pow_exact (Parse.expBase_inRange l) hir h9).1
    (fun hh => Parse.expBase_pos l (by exact_mod_cast hh.1))
  have hb0 : l.base ≠ 0 := by rcases Parse.base_nat l with h | h <;> rw [h] <;> decide
  have hb0' : (l.base : ℤ) ≠ 0 := by exact_mod_cast hb0
  obtain ⟨rs, hsum⟩ := hs.int_plus (x := Lit.seqValue l.base l.frac /
    (l.base : ℚ) ^ (Lit.digits l.frac).length) r2 ⟨r3, r5⟩
    ⟨pow_ne_zero _ hb0', by simp [Fraction.mk]⟩ h8
  obtain ⟨a, b⟩ := hs.times rs r9 hsum hpow g9
  exact ⟨a, by simpa [FloatLit.value] using b⟩

theorem assemble (hp : p.Sound) {bias den : ℤ} {s e m : ℕ} {r : Raw} (hden : 0 < den)
    (hr : T.InRange den) (h : p.assemble T bias den s e m ⇓ r) : r.InRange T ∧
    Denotes r ((if s = 0 then 1 else -1) * (1 + (m : ℚ) / den) * 2 ^ ((e : ℤ) - bias)) := by
  obtain ⟨sg, h1, g1⟩ := bind_eq_clean.1 h
  obtain ⟨e', h2, g2⟩ := bind_eq_clean.1 g1
  obtain ⟨k, h3, g3⟩ := bind_eq_clean.1 g2
  obtain ⟨n, h4, g4⟩ := bind_eq_clean.1 g3
  obtain ⟨f, h5, g5⟩ := bind_eq_clean.1 g4
  obtain ⟨g, h6, g6⟩ := bind_eq_clean.1 g5
  obtain ⟨w, h7, g7⟩ := bind_eq_clean.1 g6
  obtain ⟨-, rfl⟩ := conv_clean.1 h2
  obtain ⟨hk, rfl⟩ := sub_clean.1 h3
  obtain ⟨hnr, rfl⟩ := conv_clean.1 h4
  have hsg : T.InRange sg ∧ (sg : ℚ) = if s = 0 then 1 else -1 := by
    unfold FloatingPoint.signFactor at h1
    split at h1
    · rename_i hs
      obtain rfl := (pure_eq_ok.1 h1).1
      exact ⟨inRange_one, by simp [hs]⟩
    · rename_i hs
      obtain ⟨hr1, rfl⟩ := neg_clean.1 h1
      exact ⟨hr1, by simp [hs]⟩
  obtain ⟨fr, hf⟩ := hp.int_plus (f := Fraction.mk (m : ℤ) den) (n := 1) (x := (m : ℚ) / den)
    inRange_one ⟨hnr, hr⟩ ⟨hden.ne', by simp [Fraction.mk]⟩ h5
  obtain ⟨gr, hg⟩ := hp.int_times hsg.1 fr hf h6
  obtain ⟨a, b⟩ := hp.times gr (Fraction.pow2_all _ _ h7) hg (C35_pow2_exact hk h7) g7
  rw [hsg.2] at b
  exact ⟨a, by simpa using b⟩

theorem ofFloat_little (G : Fmt) (b : ℕ) : p.ofFloat .little G T b =
    (FloatingPoint.mantissaDenominator T G >>= fun den =>
      if G.NaN b then pure Limits.undefined
      else p.assemble T G.bias den (G.signField b) (G.expField b) (G.mantField b)) := by
  have hM := G.mant_pos
  have hE := G.exp_ge
  have e1 : G.uint.add G.mant G.exp ⇓ ((G.mant + G.exp : ℕ) : ℤ) := by
    have h0 : G.uint.min = 0 := rfl
    have h1 : G.uint.max = ((2 ^ (1 + G.mant + G.exp) : ℕ) : ℤ) - 1 := rfl
    have := Nat.lt_two_pow_self (n := 1 + G.mant + G.exp)
    rw [IntTy.add, IntTy.arith, if_pos (by constructor <;> omega)]; push_cast; rfl
  have hu := FloatingPoint.uint_bits G
  have b1 := FloatingPoint.bitField_eq (U := G.uint) (b := b) (off := G.mant + G.exp) (n := 1)
    (FloatingPoint.uint_signed G) (by omega) (by omega)
  have b2 := FloatingPoint.bitField_eq (U := G.uint) (b := b) (off := G.mant) (n := G.exp)
    (FloatingPoint.uint_signed G) (by omega) (by omega)
  have b3 := FloatingPoint.bitField_eq (U := G.uint) (b := b) (off := 0) (n := G.mant)
    (FloatingPoint.uint_signed G) (by omega) (by omega)
  have b4 := FloatingPoint.repeatingOnes_eq (U := G.uint) (n := G.exp)
    (FloatingPoint.uint_signed G) (by omega)
  simp only [Nat.cast_one, pow_one, Nat.cast_zero, pow_zero, Nat.div_one] at b1 b3
  simp only [Policy.ofFloat, FloatingPoint.offsets, e1, ok_bind_false, FloatingPoint.constant,
    FloatingPoint.exponentBias_eq, Res.pure_def, b1, b2, b3, b4]
  congr 1; funext den
  simp only [Fmt.NaN, Fmt.signField, Fmt.expField, Fmt.mantField, Nat.cast_inj]
  split_ifs with h
  · exact (if_pos h).symm
  · exact (if_neg h).symm

theorem durationCast (hp : p.Sound) {P Q : Chrono.Period} {c : Chrono.Count} {r : Raw} {x : ℚ}
    (hc : c.Is x) (hr : c.InRange T) (h : p.durationCast T P Q c ⇓ r) :
    r.InRange T ∧ Denotes r (x * (P.seconds / Q.seconds)) := by
  unfold Policy.durationCast at h
  split at h
  · cases h
  · rename_i n d hnd
    obtain ⟨hn0, hd0, hq⟩ := Chrono.ratioDivide_factor hnd
    obtain ⟨f, h1, h⟩ := bind_eq_clean.1 h
    have fr := Chrono.cast_all hr _ _ h1
    have fx := Chrono.cast_denotes hc h1
    have hdq : (d : ℚ) ≠ 0 := by exact_mod_cast hd0.ne'
    rw [← hq]
    split at h
    · rename_i hh
      obtain rfl := (pure_eq_ok.1 h).1
      rw [hh.1, hh.2]
      exact ⟨fr, by simpa using fx⟩
    · split at h
      · rename_i hh
        obtain ⟨g, h2, h⟩ := bind_eq_clean.1 h
        obtain ⟨a, b⟩ := hp.times fr (Chrono.factor_all _ _ h2) fx (Chrono.factor_denotes h2) h
        exact ⟨a, by simpa [hh] using b⟩
      · split at h
        · rename_i hh
          obtain ⟨g, h2, h⟩ := bind_eq_clean.1 h
          obtain ⟨a, b⟩ := hp.over fr (Chrono.factor_all _ _ h2) fx (Chrono.factor_denotes h2)
            hdq h
          exact ⟨a, by rw [hh]; simpa [div_eq_mul_inv] using b⟩
        · obtain ⟨g, h2, h⟩ := bind_eq_clean.1 h
          obtain ⟨y, h3, h⟩ := bind_eq_clean.1 h
          obtain ⟨g', h4, h⟩ := bind_eq_clean.1 h
          obtain ⟨a, b⟩ := hp.times fr (Chrono.factor_all _ _ h2) fx (Chrono.factor_denotes h2) h3
          obtain ⟨a', b'⟩ := hp.over a (Chrono.factor_all _ _ h4) b (Chrono.factor_denotes h4)
            hdq h
          exact ⟨a', by rwa [← mul_div_assoc]⟩

end Sound
end Policy
end Ieme
