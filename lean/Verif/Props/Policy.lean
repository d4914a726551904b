import Verif.Lemmas.Policy
import Verif.Props.Rounding
import Verif.Props.FloatingPoint
import Verif.Props.Parse

/-!
# User-defined policies: property C103
-/

namespace Ieme

open Res IntTy

variable {p : Policy} {T : IntTy} {f r : Raw} {x q : ℚ} {n d : ℤ}

/-- A policy of a user: cross multiplication in 64 bits, reduced, thrown when it does not fit. -/
def userPolicy : Policy :=
  (Policy.ofOps .fastReducedO).checked fun T => if T = i32 then i64 else T

/-- **C103** For the policies of the library the functions over an arbitrary policy are those
that all other properties are about. -/
theorem C103_library_instances (o : Ops) (mode : ReduceMode) :
    Policy.ofOps (.reducedInput o mode) = (Policy.ofOps o).reducedInput mode ∧
    Policy.ofOps (.reducedOutput o mode) = (Policy.ofOps o).reducedOutput mode ∧
    (∀ L R op a, (Policy.ofOps o).fArith L R op a = Fraction.arith L R o op a) ∧
    (∀ L R op a, (Policy.ofOps o).fCmp L R op a = Fraction.cmp L R o op a) ∧
    (∀ L R op l r, (Policy.ofOps o).assignF L R op l r = Fraction.assignF L R o op l r) ∧
    (∀ L R op l r, (Policy.ofOps o).assignR L R op l r = Fraction.assignR L R o op l r) ∧
    (∀ T e, (Policy.ofOps o).eval T e = e.eval T o) ∧
    (∀ T f s, (Policy.ofOps o).run T f s = Assign.run T o f s) ∧
    (∀ T f, (Policy.ofOps o).abs T f = Fraction.abs T o f) ∧
    (∀ T f, (Policy.ofOps o).round T f = Fraction.round T o f) ∧
    (∀ T f d, (Policy.ofOps o).truncRedenominate T f d = Fraction.truncRedenominate T o f d) ∧
    (∀ T f d, (Policy.ofOps o).ceilRedenominate T f d = Fraction.ceilRedenominate T o f d) ∧
    (∀ T f d, (Policy.ofOps o).floorRedenominate T f d = Fraction.floorRedenominate T o f d) ∧
    (∀ T f d, (Policy.ofOps o).roundRedenominate T f d = Fraction.roundRedenominate T o f d) ∧
    (∀ e, (Policy.ofOps o).mEval e = e.eval o) ∧
    (∀ W F m, (Policy.ofOps o).asFraction W F m = m.asFraction W F o) ∧
    (∀ T s, (Policy.ofOps o).ofString T s = Parse.toFraction T o s) ∧
    (∀ E F T b, (Policy.ofOps o).ofFloat E F T b = FloatingPoint.toFraction E F T o b) ∧
    (∀ T P Q c, (Policy.ofOps o).durationCast T P Q c = Chrono.durationCast T o P Q c) :=
  ⟨Policy.ofOps_reducedInput o mode, Policy.ofOps_reducedOutput o mode, fun _ _ _ _ => rfl,
    fun _ _ _ _ => rfl, fun _ _ _ _ _ => rfl, fun _ _ _ _ _ => rfl,
    fun _ => Policy.ofOps_eval o, fun _ _ _ => Policy.ofOps_run o _ _, fun _ _ => rfl,
    fun _ _ => rfl, fun _ _ _ => rfl, fun _ _ _ => rfl, fun _ _ _ => rfl, fun _ _ _ => rfl,
    Policy.ofOps_mEval o, fun _ _ _ => rfl, fun _ _ => rfl, fun _ _ _ _ => rfl,
    fun _ _ _ _ => rfl⟩

example : (Policy.ofOps .safe).round i32 ⟨7, 2⟩ ⇓ 4 ∧ Fraction.round i32 .safe ⟨7, 2⟩ ⇓ 4 := by
  decide

/-- **C103** Every policy of the library meets the contract. -/
theorem C103_library_sound (o : Ops) : (Policy.ofOps o).Sound := Policy.ofOps_sound o

example : (Policy.ofOps .defaults).arith i32 .plus (.ff ⟨1, 6⟩ ⟨1, 3⟩) ⇓ ⟨1, 2⟩ := by decide

/-- **C103** The contract is exactly what makes expressions right: a policy meets it if and
only if every expression that finishes has its exact value. -/
theorem C103_expressions_iff : p.Sound ↔ ∀ (T : IntTy) (e : Expr) (r : Raw) (q : ℚ),
    e.LeavesInRange T → p.eval T e ⇓ r → e.value = some q → r.InRange T ∧ Denotes r q := by
  have lit : ∀ {f : Raw} {x : ℚ}, Denotes f x → litValue f = some x := fun h => by
    rw [litValue, if_neg h.1, h.2]
  constructor
  · exact fun hp T e r q => hp.eval
  · intro h
    constructor
    · intro T v r x hv hx hr
      refine h T (.neg (.lit v)) r (-x) hv ?_ (by rw [Expr.value, Expr.value, lit hx]; rfl)
      simp only [Policy.eval, Res.pure_def, ok_bind_false]; exact hr
    · intro T op a r x y q ha hx hq hr
      cases a with
      | ff l s =>
        refine h T (.ff op (.lit l) (.lit s)) r q ha ?_ ?_
        · simp only [Policy.eval, Res.pure_def, ok_bind_false, Policy.fArith_self]; exact hr
        · simp only [Expr.value, lit hx.1, lit hx.2, Option.bind_some, hq]
      | fr l s =>
        refine h T (.fr op (.lit l) s) r q ha ?_ ?_
        · simp only [Policy.eval, Res.pure_def, ok_bind_false, Policy.fArith_self]; exact hr
        · simp only [Expr.value, lit hx.1, hx.2, Option.bind_some, hq]
      | rf l s =>
        refine h T (.rf op l (.lit s)) r q ha ?_ ?_
        · simp only [Policy.eval, Res.pure_def, ok_bind_false, Policy.fArith_self]; exact hr
        · simp only [Expr.value, lit hx.2, hx.1, Option.bind_some, hq]

/-- A policy that adds numerators and denominators does not meet the contract. -/
example : ¬ (Policy.mk (fun _ v => pure v)
    (fun _ _ a => pure ⟨a.left.num + a.right.num, a.left.den + a.right.den⟩)
    (fun _ _ _ => pure true)).Sound := by
  intro hp
  have := (hp.arith (T := i32) (op := .plus) (a := .ff ⟨1, 2⟩ ⟨1, 2⟩) (r := ⟨2, 4⟩)
    (x := 1 / 2) (y := 1 / 2) (q := 1) ⟨by decide, by decide⟩ ⟨by norm_num [Denotes], by norm_num [Denotes]⟩
    (by norm_num [ArithOp.value]) rfl).2
  norm_num [Denotes] at this

/-- **C103** Wrapping a policy that meets the contract in `reduced_input` or `reduced_output`
of any mode gives one that meets it; comparisons stay right too. -/
theorem C103_wrappers_sound (hp : p.Sound) (mode : ReduceMode) :
    (p.reducedInput mode).Sound ∧ (p.reducedOutput mode).Sound ∧
    (p.Compares → (p.reducedInput mode).Compares ∧ (p.reducedOutput mode).Compares) := by
  refine ⟨⟨fun hv hx h => ?_, fun ha hx hq h => ?_⟩, ⟨fun hv hx h => ?_, fun ha hx hq h => ?_⟩,
    fun hc => ⟨⟨fun ha hx h => ?_⟩, ⟨fun ha hx h => hc.cmp ha hx h⟩⟩⟩
  · obtain ⟨v', h1, h2⟩ := bind_eq_clean.1 h
    exact hp.negate (Raw.reduce_inRange h1) (Raw.reduce_denotes hx h1) h2
  · obtain ⟨a', h1, h2⟩ := bind_eq_clean.1 h
    exact hp.arith (Args.reduce_inRange ha h1) (Args.reduce_denote hx h1) hq h2
  · obtain ⟨v', h1, h2⟩ := bind_eq_clean.1 h
    obtain ⟨-, b⟩ := hp.negate hv hx h1
    exact ⟨Raw.reduce_inRange h2, Raw.reduce_denotes b h2⟩
  · obtain ⟨v', h1, h2⟩ := bind_eq_clean.1 h
    obtain ⟨-, b⟩ := hp.arith ha hx hq h1
    exact ⟨Raw.reduce_inRange h2, Raw.reduce_denotes b h2⟩
  · obtain ⟨a', h1, h2⟩ := bind_eq_clean.1 h
    exact hc.cmp (Args.reduce_inRange ha h1) (Args.reduce_denote hx h1) h2

example : (userPolicy.reducedInput .ignoreSigns).arith i32 .plus (.ff ⟨2, 8⟩ ⟨-3, -12⟩) ⇓ ⟨1, 2⟩ ∧
    (userPolicy.reducedInput .ignoreSigns).cmp i32 .less (.ff ⟨2, 8⟩ ⟨3, 9⟩) ⇓ true := by
  decide +kernel

/-- **C103** A policy only has to handle operands in lowest terms with positive denominators:
`reduced_input` with normalized signs supplies the rest. -/
theorem C103_canonical_inputs :
    (p.SoundCanonical → (p.reducedInput .normalizeSigns).Sound) ∧
    (p.ComparesCanonical → (p.reducedInput .normalizeSigns).Compares) := by
  refine ⟨fun hp => ⟨fun hv hx h => ?_, fun ha hx hq h => ?_⟩, fun hp => ⟨fun ha hx h => ?_⟩⟩
  · obtain ⟨v', h1, h2⟩ := bind_eq_clean.1 h
    exact hp.negate (Raw.reduce_inRange h1) (Raw.reduce_canonical hx.1 h1)
      (Raw.reduce_denotes hx h1) h2
  · obtain ⟨a', h1, h2⟩ := bind_eq_clean.1 h
    obtain ⟨c1, c2⟩ := Args.reduce_canonical hx h1
    exact hp.arith (Args.reduce_inRange ha h1) c1 c2 (Args.reduce_denote hx h1) hq h2
  · obtain ⟨a', h1, h2⟩ := bind_eq_clean.1 h
    obtain ⟨c1, c2⟩ := Args.reduce_canonical hx h1
    exact hp.cmp (Args.reduce_inRange ha h1) c1 c2 (Args.reduce_denote hx h1) h2

/-- The comparisons of `fast` are right for operands in lowest terms with positive denominators
only. -/
theorem C103_fast_comparisons : (Policy.ofOps .fast).ComparesCanonical ∧
    ¬ (Policy.ofOps .fast).Compares := by
  constructor
  · constructor
    intro T op a b x y ha h1 h2 hx h
    exact C15_order_exact_partial hx (by
      cases a with
      | ff l r => exact ⟨h1.1, h2.1⟩
      | fr l r => exact h1.1
      | rf l r => exact h2.1) h
  · intro hc
    have := (hc.cmp (T := i32) (op := .less) (a := .ff ⟨1, -2⟩ ⟨1, 3⟩) (b := false)
      (x := -1 / 2) (y := 1 / 3) ⟨by decide, by decide⟩ ⟨by norm_num [Denotes], by norm_num [Denotes]⟩
      (by decide)).2 (by norm_num [CmpOp.Holds])
    cases this

example : Int.gcd (-1) 2 = 1 ∧ (Policy.ofOps .fast).cmp i32 .less (.ff ⟨-1, 2⟩ ⟨1, 3⟩) ⇓ true ∧
    ((Policy.ofOps .fast).reducedInput .normalizeSigns).cmp i32 .less (.ff ⟨1, -2⟩ ⟨1, 3⟩) ⇓ true := by
  decide +kernel

/-- **C103** Around any policy whatsoever `reduced_output` with normalized signs returns only
lowest terms with positive denominator, or `0/0`. -/
theorem C103_canonical_outputs :
    (∀ {v r : Raw}, (p.reducedOutput .normalizeSigns).negate T v ⇓ r →
      Canonical r ∨ r = ⟨0, 0⟩) ∧
    (∀ {op : ArithOp} {a : Args} {r : Raw}, (p.reducedOutput .normalizeSigns).arith T op a ⇓ r →
      Canonical r ∨ r = ⟨0, 0⟩) := by
  have key : ∀ {s r : Raw}, s.reduce T .normalizeSigns ⇓ r → Canonical r ∨ r = ⟨0, 0⟩ := by
    intro s r h
    by_cases h0 : s.den = 0
    · exact .inr (Raw.reduce_clean_undefined h0 h)
    · exact .inl (Raw.reduce_canonical h0 h)
  refine ⟨fun h => ?_, fun h => ?_⟩
  · obtain ⟨s, -, h2⟩ := bind_eq_clean.1 h
    exact key h2
  · obtain ⟨s, -, h2⟩ := bind_eq_clean.1 h
    exact key h2

example : (userPolicy.reducedOutput .normalizeSigns).arith i32 .divides (.ff ⟨1, 2⟩ ⟨-3, 2⟩) ⇓
    ⟨-1, 3⟩ := by decide +kernel

/-- **C103** Sequences of compound assignments have the accumulated value. -/
theorem C103_assignments (hp : p.Sound) {s : List Assign} (hf : f.InRange T) (hx : Denotes f x)
    (hs : ∀ a ∈ s, a.InRange T) (h : p.run T f s ⇓ r) (hv : Assign.values x s = some q) :
    r.InRange T ∧ Denotes r q := hp.run hf hx hs h hv

example : userPolicy.run i32 ⟨1, 65536⟩ [.frac .plus ⟨1, 65536⟩, .int .multiplies 5,
    .frac .modulus ⟨1, 9⟩] ⇓ ⟨5, 32768⟩ ∧
    Assign.values (1 / 65536) [.frac .plus ⟨1, 65536⟩, .int .multiplies 5,
      .frac .modulus ⟨1, 9⟩] = some (5 / 32768) ∧
    Assign.run i32 .fast ⟨1, 65536⟩ [.frac .plus ⟨1, 65536⟩] = .fault .overflow := by
  decide +kernel

/-- **C103** `abs` is the absolute value. -/
theorem C103_abs (hp : p.Sound) (hf : f.InRange T) (hx : Denotes f x) (h : p.abs T f ⇓ r) :
    r.InRange T ∧ Denotes r |x| := by
  have hnn : f.isNonNegative = true ↔ 0 ≤ x :=
    (C24_sign_queries_exact f).2.1.trans
      ⟨fun ⟨_, h, h'⟩ => by rwa [hx.unique h], fun h => ⟨x, hx, h⟩⟩
  unfold Policy.abs at h
  split at h
  · rename_i h0
    obtain rfl := (pure_eq_ok.1 h).1
    rw [abs_of_nonneg (hnn.1 h0)]
    exact ⟨hf, hx⟩
  · rename_i h0
    rw [hnn, not_le] at h0
    rw [abs_of_neg h0]
    exact hp.negate hf hx h

example : userPolicy.abs i32 ⟨3, -6⟩ ⇓ ⟨1, 2⟩ := by decide +kernel

theorem half_denotes : Denotes (Fraction.mk 1 2) (1 / 2) := by norm_num [Denotes, Fraction.mk]

/-- **C103** `round` with a policy that also compares correctly: the answer, and exactly where
it is the nearest whole number. -/
theorem C103_round (hp : p.Sound) (hc : p.Compares) (hf : f.InRange T) (hx : Denotes f x)
    (h : p.round T f ⇓ n) :
    (n = if x - floorAnswer x < 1 / 2 then floorAnswer x else floorAnswer x + 1) ∧
    (NearestUp x n ↔ ¬ (-1 < x ∧ x < -1 / 2)) := by
  obtain ⟨m, hm, h⟩ := bind_eq_clean.1 h
  obtain ⟨e, he, h⟩ := bind_eq_clean.1 h
  obtain ⟨b, hb, h⟩ := bind_eq_clean.1 h
  have hmr := Fraction.floor_all _ _ hm
  obtain rfl : m = floorAnswer x := Fraction.floor_val hx hm
  obtain ⟨er, ex⟩ := hp.minus_int hf hmr hx he
  rw [Policy.fCmp_self] at hb
  have hb' : b = true ↔ x - floorAnswer x < 1 / 2 := hc.cmp (a := .ff e (Fraction.mk 1 2))
    ⟨er, inRange_one, inRange_of_nonneg_le (by decide) (by decide)⟩ ⟨ex, half_denotes⟩ hb
  have hn : n = if x - floorAnswer x < 1 / 2 then floorAnswer x else floorAnswer x + 1 := by
    split at h
    · rename_i hb1
      rw [if_pos (hb'.1 hb1)]
      exact (pure_eq_ok.1 h).1.symm
    · rename_i hb1
      rw [if_neg fun hh => hb1 (hb'.2 hh)]
      exact (add_clean.1 h).2
  refine ⟨hn, ?_⟩
  by_cases hr : -1 < x ∧ x < -1 / 2
  · simp only [hr, and_self, not_true_eq_false, iff_false]
    have hfl : floorAnswer x = 0 := if_pos ⟨hr.1, by linarith [hr.2]⟩
    rw [hfl] at hn
    rw [if_pos (by push_cast; linarith [hr.2])] at hn
    subst hn
    rintro ⟨h1, -⟩
    have := (abs_le.1 h1).2
    push_cast at this
    linarith [hr.2]
  · refine iff_of_true ?_ hr
    by_cases hz : -1 < x ∧ x < 0
    · have hfl : floorAnswer x = 0 := if_pos hz
      rw [hfl, if_pos (by push_cast; linarith [hz.2])] at hn
      subst hn
      have h1 : -1 / 2 ≤ x := by
        by_contra hcon
        exact hr ⟨hz.1, not_le.1 hcon⟩
      refine ⟨by rw [abs_le]; push_cast; constructor <;> linarith [hz.2], fun m hm => ?_⟩
      rcases abs_choice ((m : ℚ) - x) with e | e <;> rw [e] at hm
      · have h2 : (m : ℚ) < 1 := by linarith [hz.2]
        have : m < 1 := by exact_mod_cast h2
        omega
      · have h2 : (m : ℚ) < 1 := by linarith [hz.2]
        have : m < 1 := by exact_mod_cast h2
        omega
    · have hfl : floorAnswer x = ⌊x⌋ := if_neg hz
      rw [hfl] at hn
      have h1 := Int.floor_le x
      have h2 := Int.lt_floor_add_one x
      split at hn
      · rename_i h3
        subst hn
        refine ⟨by rw [abs_le]; constructor <;> linarith, fun m hm => ?_⟩
        rcases abs_choice ((m : ℚ) - x) with e | e <;> rw [e] at hm
        · have h4 : (m : ℚ) < ⌊x⌋ + 1 := by linarith
          have : m < ⌊x⌋ + 1 := by exact_mod_cast h4
          omega
        · have h4 : (m : ℚ) < ⌊x⌋ + 1 := by linarith
          have : m < ⌊x⌋ + 1 := by exact_mod_cast h4
          omega
      · rename_i h3
        subst hn
        refine ⟨by rw [abs_le]; push_cast; constructor <;> linarith, fun m hm => ?_⟩
        rcases abs_choice ((m : ℚ) - x) with e | e <;> rw [e] at hm
        · have h4 : (m : ℚ) < ⌊x⌋ + 2 := by linarith
          have : m < ⌊x⌋ + 2 := by exact_mod_cast h4
          omega
        · have h4 : (m : ℚ) < ⌊x⌋ + 2 := by linarith
          have : m < ⌊x⌋ + 2 := by exact_mod_cast h4
          omega

example : userPolicy.round i32 ⟨7, 2⟩ ⇓ 4 ∧ userPolicy.round i32 ⟨2147483646, 2147483647⟩ ⇓ 1 ∧
    userPolicy.round i32 ⟨-3, 4⟩ ⇓ 0 := by decide +kernel

/-- **C103** The redenominations: the requested denominator, and as numerator the rounding of
the value times the denominator (for `ceil` and `floor` of negative denominators, minus the
rounding of the value times its absolute value). -/
theorem C103_redenominate (hp : p.Sound) (hf : f.InRange T) (hd : T.InRange d)
    (hx : Denotes f x) :
    (p.truncRedenominate T f d ⇓ r → r = ⟨ratTrunc (x * d), d⟩) ∧
    (p.ceilRedenominate T f d ⇓ r →
      r = ⟨if 0 ≤ d then ceilAnswer (x * d) else -ceilAnswer (x * -d), d⟩) ∧
    (p.floorRedenominate T f d ⇓ r →
      r = ⟨if 0 ≤ d then floorAnswer (x * d) else -floorAnswer (x * -d), d⟩) ∧
    (p.Compares → p.roundRedenominate T f d ⇓ r → r.den = d ∧
      (NearestUp (x * d) r.num ↔ ¬ (-1 < x * d ∧ x * d < -1 / 2))) := by
  refine ⟨fun h => ?_, fun h => ?_, fun h => ?_, fun hc h => ?_⟩
  · obtain ⟨g, hg, h⟩ := bind_eq_clean.1 h
    obtain ⟨n, hn, h⟩ := bind_eq_clean.1 h
    obtain rfl := (pure_eq_ok.1 h).1
    rw [(Fraction.trunc_ok (hp.times_int hf hd hx hg).2 hn).1]
    rfl
  · unfold Policy.ceilRedenominate at h
    split at h
    · rename_i h0
      obtain ⟨g, hg, h⟩ := bind_eq_clean.1 h
      obtain ⟨n, hn, h⟩ := bind_eq_clean.1 h
      obtain rfl := (pure_eq_ok.1 h).1
      rw [if_pos h0, Fraction.ceil_val (hp.times_int hf hd hx hg).2 hn]
      rfl
    · rename_i h0
      obtain ⟨m, hm, h⟩ := bind_eq_clean.1 h
      obtain ⟨hmr, rfl⟩ := neg_clean.1 hm
      obtain ⟨g, hg, h⟩ := bind_eq_clean.1 h
      obtain ⟨n, hn, h⟩ := bind_eq_clean.1 h
      obtain ⟨k, hk, h⟩ := bind_eq_clean.1 h
      obtain ⟨-, rfl⟩ := neg_clean.1 hk
      obtain rfl := (pure_eq_ok.1 h).1
      have := (hp.times_int hf hmr hx hg).2
      push_cast at this
      rw [if_neg h0, Fraction.ceil_val this hn]
      rfl
  · unfold Policy.floorRedenominate at h
    split at h
    · rename_i h0
      obtain ⟨g, hg, h⟩ := bind_eq_clean.1 h
      obtain ⟨n, hn, h⟩ := bind_eq_clean.1 h
      obtain rfl := (pure_eq_ok.1 h).1
      rw [if_pos h0, Fraction.floor_val (hp.times_int hf hd hx hg).2 hn]
      rfl
    · rename_i h0
      obtain ⟨m, hm, h⟩ := bind_eq_clean.1 h
      obtain ⟨hmr, rfl⟩ := neg_clean.1 hm
      obtain ⟨g, hg, h⟩ := bind_eq_clean.1 h
      obtain ⟨n, hn, h⟩ := bind_eq_clean.1 h
      obtain ⟨k, hk, h⟩ := bind_eq_clean.1 h
      obtain ⟨-, rfl⟩ := neg_clean.1 hk
      obtain rfl := (pure_eq_ok.1 h).1
      have := (hp.times_int hf hmr hx hg).2
      push_cast at this
      rw [if_neg h0, Fraction.floor_val this hn]
      rfl
  · obtain ⟨g, hg, h⟩ := bind_eq_clean.1 h
    obtain ⟨n, hn, h⟩ := bind_eq_clean.1 h
    obtain rfl := (pure_eq_ok.1 h).1
    obtain ⟨gr, gx⟩ := hp.times_int hf hd hx hg
    exact ⟨rfl, (C103_round hp hc gr gx hn).2⟩

example : userPolicy.truncRedenominate i32 ⟨-7, 3⟩ 2 ⇓ ⟨-4, 2⟩ ∧
    userPolicy.ceilRedenominate i32 ⟨7, 3⟩ (-2) ⇓ ⟨-5, -2⟩ ∧
    userPolicy.floorRedenominate i32 ⟨7, 3⟩ (-2) ⇓ ⟨-4, -2⟩ ∧
    userPolicy.roundRedenominate i32 ⟨7, 3⟩ 2 ⇓ ⟨5, 2⟩ := by decide +kernel

/-- **C103** Expressions over mixed numbers keep the class invariant and have their exact
value, and converting back to a fraction keeps it. -/
theorem C103_mixed (hp : p.Sound) {e : MExpr} {m : Mixed} (he : e.AllInRange)
    (h : p.mEval e ⇓ m) : m.Invariant ∧ ∃ q, e.value = some q ∧ m.Denotes q ∧
      ∀ r, p.asFraction e.ty.1 e.ty.2 m ⇓ r → Denotes r q := by
  obtain ⟨hi, -, q, hq, hm⟩ := hp.mEval he h
  refine ⟨hi, q, hq, hm, fun r hr => ?_⟩
  obtain ⟨w, hw, h1⟩ := bind_eq_clean.1 hr
  obtain ⟨g, hg, h2⟩ := bind_eq_clean.1 h1
  obtain ⟨hwr, e1⟩ := conv_clean.1 hw
  obtain ⟨hgr, e2⟩ := Raw.conv_clean.1 hg
  subst e1 e2
  obtain ⟨y, hy, rfl⟩ := hm
  exact (hp.int_plus hwr hgr hy h2).2

example : userPolicy.mEval (.addFraction (.mk i32 i32 2 ⟨-1, 3⟩) i32 ⟨7, 6⟩) ⇓ ⟨2, ⟨5, 6⟩⟩ ∧
    userPolicy.asFraction i32 i32 ⟨2, ⟨5, 6⟩⟩ ⇓ ⟨17, 6⟩ := by decide +kernel

/-- **C103** Strings: the literals with a radix point have their exact value, and every other
string gives `0/0` whatever the policy does. -/
theorem C103_strings :
    (p.Sound → ∀ {l : FloatLit}, l.Valid → l.point = true → p.ofString T l.render ⇓ r →
      r.InRange T ∧ Denotes r l.value) ∧
    (∀ {s : List Char}, ¬ IsPointedFloatLit s → ∃ w, p.ofString T s = .ok ⟨0, 0⟩ w) := by
  refine ⟨fun hp l hv hl h => hp.ofString hv hl h, fun {s} hs => ?_⟩
  obtain ⟨g, w, h1, h2⟩ := Parse.scan_sound s
  rcases g with _ | g
  · exact ⟨w || false, by rw [Policy.ofString, h1]; exact bind_eq_ok.2 ⟨_, _, _, rfl, rfl, rfl⟩⟩
  · exact absurd (h2 g rfl) hs

example : userPolicy.ofString i32 "-1.5".toList ⇓ ⟨0, 0⟩ ∧
    userPolicy.ofString i32 "12.5e-1".toList ⇓ ⟨5, 4⟩ := by decide +kernel

/-- **C103** Floating-point numbers: a normal one has its exact value. -/
theorem C103_floats (hp : p.Sound) {F : Fmt} {b : ℕ} (hb : F.Normal b)
    (h : p.ofFloat .little F T b ⇓ r) : r.InRange T ∧ Denotes r (F.value b) := by
  have hn : ¬ F.NaN b := fun hn => by have := hb.2; have := hn.1; omega
  rw [Policy.Sound.ofFloat_little, FloatingPoint.mantissaDenominator_eq] at h
  obtain ⟨den, h1, h⟩ := bind_eq_clean.1 h
  rw [if_neg hn] at h
  split at h1
  · obtain ⟨hr, rfl⟩ := conv_clean.1 h1
    obtain ⟨a, b'⟩ := hp.assemble (by positivity) hr h
    refine ⟨a, ?_⟩
    rw [Fmt.value_of_normal (by have := hb.1; omega)]
    exact b'
  · cases h1

example : binary32.Normal 0xC0580000 ∧ userPolicy.ofFloat .little binary32 i32 0xC0580000 ⇓
    ⟨-27, 8⟩ := by decide +kernel

/-- **C103** Conversions between durations are exact. -/
theorem C103_durations (hp : p.Sound) {P Q : Chrono.Period} {c : Chrono.Count} (hc : c.Is x)
    (hr : c.InRange T) (h : p.durationCast T P Q c ⇓ r) :
    r.InRange T ∧ Denotes r (x * (P.seconds / Q.seconds)) := hp.durationCast hc hr h

example : userPolicy.durationCast i32 ⟨1, 1000, by decide, by decide, by decide⟩
    ⟨60, 1, by decide, by decide, by decide⟩
    (.int 1500) ⇓ ⟨1, 40⟩ := by decide +kernel

/-- **C103** The policy that computes with a wider type and throws when the result does not fit
meets the contract, over any policy that does. -/
theorem C103_checked_sound (hp : p.Sound) {wide : IntTy → IntTy}
    (hw : ∀ T n, IntTy.InRange T n → (wide T).InRange n) :
    (p.checked wide).Sound ∧ (p.Compares → (p.checked wide).Compares) := by
  have hraw : ∀ {T : IntTy} {f : Raw}, f.InRange T → f.InRange (wide T) := fun h =>
    ⟨hw _ _ h.1, hw _ _ h.2⟩
  have hargs : ∀ {T : IntTy} {a : Args}, a.InRange T → a.InRange (wide T) := by
    intro T a h
    cases a with
    | ff l r => exact ⟨hraw h.1, hraw h.2⟩
    | fr l r => exact ⟨hraw h.1, hw _ _ h.2⟩
    | rf l r => exact ⟨hw _ _ h.1, hraw h.2⟩
  refine ⟨⟨fun hv hx h => ?_, fun ha hx hq h => ?_⟩, fun hc => ⟨fun ha hx h => ?_⟩⟩
  · obtain ⟨s, h1, h2⟩ := bind_eq_clean.1 h
    split at h2
    · rename_i hr
      obtain rfl := (pure_eq_ok.1 h2).1
      exact ⟨hr, (hp.negate (hraw hv) hx h1).2⟩
    · cases h2
  · obtain ⟨s, h1, h2⟩ := bind_eq_clean.1 h
    split at h2
    · rename_i hr
      obtain rfl := (pure_eq_ok.1 h2).1
      exact ⟨hr, (hp.arith (hargs ha) hx hq h1).2⟩
    · cases h2
  · exact hc.cmp (hargs ha) hx h

theorem userPolicy_sound : userPolicy.Sound := by
  refine (C103_checked_sound (C103_library_sound _) fun T n h => ?_).1
  split
  · subst T
    exact ⟨le_trans (by decide) h.1, le_trans h.2 (by decide)⟩
  · exact h

example : userPolicy.arith i32 .plus (.ff ⟨1, 65536⟩ ⟨1, 65536⟩) ⇓ ⟨1, 32768⟩ ∧
    userPolicy.arith i32 .plus (.fr ⟨2147483647, 1⟩ 1) = .fault .thrown := by decide +kernel

end Ieme
