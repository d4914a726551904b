import Verif.Lemmas.TextVerdicts
import Verif.Lemmas.HeaderMath
import Verif.Lemmas.HeaderMixed
import Verif.Lemmas.MixedNumber
import Verif.Spec.UserCode
import Verif.Props.Arith
import Verif.Props.Convert
import Verif.Props.Compare
import Verif.Props.Reduce
import Verif.Props.Rounding

/-! # Lemmas: code of users, run with the text of the headers -/

namespace Ieme.User

open Header

open Res

variable {o : Ops} {n : Nat} {ents : List (Nat × Val)} {M : Mem} {tys : Types}

theorem policyDepth_eq (o : Ops) : policyDepth o = opsDepth o + 15 := by
  induction o <;> simp only [policyDepth, opsDepth] <;> omega

theorem toTy_val {C S : IntTy} {x y : Int} (h : toTy C S x ⇓ y) : y = x := by
  unfold toTy at h
  split at h
  · simpa [Res.pure_def] using h.symm
  · exact (IntTy.conv_clean.1 h).2

theorem map_clean_inv {α : Type} {mk : α → Val} {e : Res α} {v : Val} (h : (mk <$> e) ⇓ v) :
    ∃ a, e ⇓ a ∧ v = mk a := by
  rw [map_eq_pure_bind] at h
  obtain ⟨a, ha, hv⟩ := bind_eq_clean.1 h
  exact ⟨a, ha, by simpa [Res.pure_def] using hv.symm⟩

theorem pure_clean {α : Type} {a b : α} (h : (pure a : Res α) ⇓ b) : b = a := by
  simpa [Res.pure_def] using h.symm

/-- The operator of a symbol. -/
def arithOf : BinOp → Option ArithOp
  | .add => some .plus
  | .sub => some .minus
  | .mul => some .multiplies
  | .div => some .divides
  | .mod => some .modulus
  | _ => none

def cmpOf : BinOp → Option CmpOp
  | .eq => some .equalTo
  | .ne => some .notEqualTo
  | .lt => some .less
  | .le => some .lessEqual
  | .gt => some .greater
  | .ge => some .greaterEqual
  | _ => none

theorem arith_text {op : BinOp} {aop : ArithOp} (hop : arithOf op = some aop) (L R : IntTy)
    (a : Ieme.Args) (h : opsDepth o + 1 ≤ n) :
    value (invoke library n .global none (opName op) [] (operands L R o a)) =
      Val.frac (L.common R) o <$> Fraction.arith L R o aop a := by
  cases op <;> simp only [arithOf, Option.some.injEq, reduceCtorEq] at hop <;> subst hop <;> cases a
  · exact fraction_plusFF_ok L R o _ _ h
  · exact fraction_plusFR_ok L R o _ _ h
  · exact fraction_plusRF_ok L R o _ _ h
  · exact fraction_minusFF_ok L R o _ _ h
  · exact fraction_minusFR_ok L R o _ _ h
  · exact fraction_minusRF_ok L R o _ _ h
  · exact fraction_multipliesFF_ok L R o _ _ h
  · exact fraction_multipliesFR_ok L R o _ _ h
  · exact fraction_multipliesRF_ok L R o _ _ h
  · exact fraction_dividesFF_ok L R o _ _ h
  · exact fraction_dividesFR_ok L R o _ _ h
  · exact fraction_dividesRF_ok L R o _ _ h
  · exact fraction_modulusFF_ok L R o _ _ h
  · exact fraction_modulusFR_ok L R o _ _ h
  · exact fraction_modulusRF_ok L R o _ _ h

theorem cmp_text {op : BinOp} {cop : CmpOp} (hop : cmpOf op = some cop) (L R : IntTy)
    (a : Ieme.Args) (h : opsDepth o + 1 ≤ n) :
    value (invoke library n .global none (opName op) [] (operands L R o a)) =
      Val.bool <$> Fraction.cmp L R o cop a := by
  cases op <;> simp only [cmpOf, Option.some.injEq, reduceCtorEq] at hop <;> subst hop <;> cases a
  · exact fraction_equalToFF_ok L R o _ _ h
  · exact fraction_equalToFR_ok L R o _ _ h
  · exact fraction_equalToRF_ok L R o _ _ h
  · exact fraction_notEqualToFF_ok L R o _ _ h
  · exact fraction_notEqualToFR_ok L R o _ _ h
  · exact fraction_notEqualToRF_ok L R o _ _ h
  · exact fraction_lessFF_ok L R o _ _ h
  · exact fraction_lessFR_ok L R o _ _ h
  · exact fraction_lessRF_ok L R o _ _ h
  · exact fraction_lessEqualFF_ok L R o _ _ h
  · exact fraction_lessEqualFR_ok L R o _ _ h
  · exact fraction_lessEqualRF_ok L R o _ _ h
  · exact fraction_greaterFF_ok L R o _ _ h
  · exact fraction_greaterFR_ok L R o _ _ h
  · exact fraction_greaterRF_ok L R o _ _ h
  · exact fraction_greaterEqualFF_ok L R o _ _ h
  · exact fraction_greaterEqualFR_ok L R o _ _ h
  · exact fraction_greaterEqualRF_ok L R o _ _ h

theorem cmp_common {L R : IntTy} {cop : CmpOp} {a : Ieme.Args} {b : Bool}
    (h : Fraction.cmp L R o cop a ⇓ b) : o.cmp (L.common R) cop a ⇓ b := by
  obtain ⟨a', h1, h2⟩ := bind_eq_clean.1 h
  rwa [Fraction.toCommon_clean h1] at h2

/-- Arithmetic and equality on operands of which one is a fraction. -/
theorem mixed_op_means {op : BinOp} {L R : IntTy} {a : Ieme.Args} {x y : ℚ} {z : Meaning} {v : Val}
    (hn : opsDepth o + 1 ≤ n) (ha : a.Denote x y) (hz : ratOp op x y = some z)
    (h : value (invoke library n .global none (opName op) [] (operands L R o a)) ⇓ v) :
    Means o v z := by
  have eqv : ∀ b : Bool, ∀ P : Prop, ∀ _ : Decidable P, (b = true ↔ P) → b = decide P := by
    intro b P _ hb
    by_cases hP : P
    · simp [hP, hb.2 hP]
    · simp only [hP, decide_false]
      simpa using mt hb.1 hP
  cases hop : arithOf op with
  | some aop =>
    rw [arith_text hop L R a hn] at h
    obtain ⟨r, hr, rfl⟩ := map_clean_inv h
    have he := C39_mixed_arith_exact ha hr
    cases op <;> simp only [arithOf, Option.some.injEq, reduceCtorEq] at hop <;> subst hop <;>
      simp only [ratOp] at hz
    · cases hz; exact ⟨rfl, he⟩
    · cases hz; exact ⟨rfl, he⟩
    · cases hz; exact ⟨rfl, he⟩
    · split at hz
      · cases hz
      · cases hz; exact ⟨rfl, he.1 ‹_›⟩
    · split at hz
      · cases hz
      · cases hz; exact ⟨rfl, he.2⟩
  | none =>
    cases op <;> simp only [arithOf, reduceCtorEq] at hop <;>
      simp only [ratOp, reduceCtorEq, Option.some.injEq] at hz
    · rw [cmp_text (cop := .equalTo) rfl L R a hn] at h
      obtain ⟨b, hb, rfl⟩ := map_clean_inv h
      subst hz
      exact eqv _ _ _ (C13_eq_exact ha (cmp_common hb))
    · rw [cmp_text (cop := .notEqualTo) rfl L R a hn] at h
      obtain ⟨b, hb, rfl⟩ := map_clean_inv h
      subst hz
      have := C13_eq_exact ha (C14_ne_not_eq.1 (cmp_common hb))
      refine eqv _ _ _ ?_
      rw [Ne, ← this]
      simp

/-- Order comparisons of two fractions. -/
theorem order_means {op : BinOp} {L R : IntTy} {l r : Raw} {x y : ℚ} {z : Bool} {v : Val}
    (hn : opsDepth o + 1 ≤ n) (hs : o.SafeBased) (hl : Denotes l x) (hr : Denotes r y)
    (hz : ratOrder op x y = some z)
    (h : value (invoke library n .global none (opName op) [] [.frac L o l, .frac R o r]) ⇓ v) :
    Means o v (.bool z) := by
  have eqv : ∀ b : Bool, ∀ P : Prop, ∀ _ : Decidable P, (b = true ↔ P) → b = decide P := by
    intro b P _ hb
    by_cases hP : P
    · simp [hP, hb.2 hP]
    · simp only [hP, decide_false]
      simpa using mt hb.1 hP
  cases hop : cmpOf op with
  | none => cases op <;> simp [cmpOf] at hop <;> simp [ratOrder] at hz
  | some cop =>
    have h' : value (invoke library n .global none (opName op) [] (operands L R o (.ff l r))) ⇓ v := h
    rw [cmp_text hop L R (.ff l r) hn] at h'
    obtain ⟨b, hb, rfl⟩ := map_clean_inv h'
    have := C15_safe_ff_exact hs hl hr (cmp_common hb)
    cases op <;> simp only [cmpOf, Option.some.injEq, reduceCtorEq] at hop <;> subst hop <;>
      simp only [ratOrder, Option.some.injEq, reduceCtorEq] at hz <;> subst hz <;>
      exact eqv _ _ _ this

/-- Operators on integers. -/
theorem int_op_means {op : BinOp} {A B : IntTy} {x y : ℤ} {z : Meaning} {v : Val} {inv : Invoke}
    (hz : intOp op x y = some z) (h : binary inv op (.int A x) (.int B y) ⇓ v) : Means o v z := by
  simp only [binary] at h
  split at h
  · rename_i hs; subst hs; simp [intOp] at hz
  · obtain ⟨x', hx, h⟩ := bind_eq_clean.1 h
    obtain ⟨y', hy, h⟩ := bind_eq_clean.1 h
    rw [toTy_val hx, toTy_val hy] at h
    cases op <;> simp only [arithInt] at h <;> simp only [intOp, reduceCtorEq] at hz
    · cases hz; obtain ⟨r, hr, rfl⟩ := map_clean_inv h; exact (IntTy.add_clean.1 hr).2
    · cases hz; obtain ⟨r, hr, rfl⟩ := map_clean_inv h; exact (IntTy.sub_clean.1 hr).2
    · cases hz; obtain ⟨r, hr, rfl⟩ := map_clean_inv h; exact (IntTy.mul_clean.1 hr).2
    · obtain ⟨r, hr, rfl⟩ := map_clean_inv h
      have := IntTy.div_clean.1 hr
      rw [if_neg this.1] at hz; cases hz; exact this.2.2
    · obtain ⟨r, hr, rfl⟩ := map_clean_inv h
      have := IntTy.mod_clean.1 hr
      rw [if_neg this.1] at hz; cases hz; exact this.2.2
    all_goals cases hz; rw [pure_clean h]; rfl

theorem decide_of_iff {b : Bool} {P : Prop} [Decidable P] (hb : b = true ↔ P) : b = decide P := by
  by_cases hP : P
  · simp [hP, hb.2 hP]
  · simp only [hP, decide_false]
    simpa using mt hb.1 hP

/-- Queries of the library. -/
theorem query_means {T : IntTy} {f : Nat} {r : Raw} {q : ℚ} {b : Bool} {v : Val}
    (hn : opsDepth o + 4 ≤ n) (hq : Denotes r q) (hf : ratQuery f q = some b)
    (h : value (invoke library n .global none f [] [.frac T o r]) ⇓ v) : Means o v (.bool b) := by
  have := opsDepth_ge o
  have query : ∀ {P : ℚ → Prop}, (∃ x, Denotes r x ∧ P x) ↔ P q := fun {P} =>
    ⟨fun ⟨x, hx, h⟩ => hx.unique hq ▸ h, fun h => ⟨q, hq, h⟩⟩
  have key := C24_sign_queries_exact r
  unfold ratQuery at hf
  split_ifs at hf with h1 h2 h3 h4 h5 h6 h7 h8 h9 <;> cases hf
  · subst h1
    rw [fraction_isZero_ok T o r (by omega)] at h
    rw [pure_clean h]
    exact decide_of_iff (key.2.2.1.trans query)
  · subst h2
    rw [fraction_isPositive_ok T o r (by omega)] at h
    rw [pure_clean h]
    exact decide_of_iff (key.1.trans query)
  · subst h3
    rw [fraction_isNegative_ok T o r (by omega)] at h
    rw [pure_clean h]
    exact decide_of_iff (key.2.2.2.2.trans query)
  · subst h4
    rw [fraction_isNonNegative_ok T o r (by omega)] at h
    rw [pure_clean h]
    exact decide_of_iff (key.2.1.trans query)
  · subst h5
    rw [fraction_isNonPositive_ok T o r (by omega)] at h
    rw [pure_clean h]
    exact decide_of_iff (key.2.2.2.1.trans query)
  · subst h6
    rw [fraction_isInteger_ok T o r (by omega)] at h
    obtain ⟨s, hs, rfl⟩ := map_clean_inv h
    refine decide_of_iff ((C25_is_integer_exact hs).trans ⟨?_, fun hd => ⟨q.num, ?_⟩⟩)
    · rintro ⟨k, hk⟩
      rw [hq.unique hk]
      rfl
    · rwa [Rat.coe_int_num_of_den_eq_one hd]
  · subst h7
    rw [fraction_isUnitFraction_ok T o r (by omega)] at h
    obtain ⟨s, hs, rfl⟩ := map_clean_inv h
    refine decide_of_iff ((C25_is_unit_fraction_exact hs).trans ⟨?_, fun hd => ?_⟩)
    · rintro ⟨k, hk0, hk⟩
      rw [hq.unique hk, one_div, Rat.inv_intCast_num]
      rcases lt_or_gt_of_ne hk0 with hk | hk
      · exact Or.inr (Int.sign_eq_neg_one_of_neg hk)
      · exact Or.inl (Int.sign_eq_one_of_pos hk)
    · refine ⟨q.num * q.den, ?_, ?_⟩
      · rcases hd with hd | hd <;> rw [hd] <;> simp
      · have e : q = 1 / ((q.num * q.den : ℤ) : ℚ) := by
          have hden : (q.den : ℚ) ≠ 0 := by exact_mod_cast q.den_ne_zero
          conv_lhs => rw [← Rat.num_div_den q]
          rcases hd with hd | hd <;> rw [hd] <;> push_cast <;> field_simp
        rwa [← e]
  · subst h8
    rw [fraction_isDefined_ok T o r (by omega)] at h
    rw [pure_clean h]
    exact Raw.isDefined_iff.2 hq.1
  · subst h9
    rw [fraction_isUndefined_ok T o r (by omega)] at h
    rw [pure_clean h]
    simp only [Means, Raw.isUndefined, Raw.isDefined_iff.2 hq.1, Bool.not_true]

theorem _root_.Ieme.Denotes.proper_iff {r : Raw} {q : ℚ} (h : Denotes r q) :
    |r.num| < |r.den| ↔ |q| < 1 := by
  have h0 : (0 : ℚ) < |(r.den : ℚ)| := abs_pos.2 (by exact_mod_cast h.1)
  rw [← h.2, abs_div, div_lt_one h0]
  exact_mod_cast Iff.rfl

theorem size_means {T : IntTy} {f : Nat} {r : Raw} {q : ℚ} {b : Bool} {v : Val}
    (hn : opsDepth o + 4 ≤ n) (hq : Denotes r q) (hf : ratSize f q = some b)
    (h : value (invoke library n .global none f [] [.frac T o r]) ⇓ v) : Means o v (.bool b) := by
  have := opsDepth_ge o
  unfold ratSize at hf
  split_ifs at hf with h1 h2 <;> cases hf
  · subst h1
    rw [fraction_isProper_ok T o r (by omega)] at h
    obtain ⟨s, hs, rfl⟩ := map_clean_inv h
    have : r.isImproper T ⇓ !s := by simp [Raw.isImproper, hs, bind_def, Res.bind, pure_def]
    have := Raw.isImproper_clean this
    simp only [Bool.not_eq_eq_eq_not, Bool.not_not] at this
    exact this.trans (decide_eq_decide.2 hq.proper_iff)
  · subst h2
    rw [fraction_isImproper_ok T o r (by omega)] at h
    obtain ⟨s, hs, rfl⟩ := map_clean_inv h
    refine (Raw.isImproper_clean hs).trans ?_
    rw [← decide_not]
    exact decide_eq_decide.2 ((not_congr hq.proper_iff).trans not_lt)

/-- The second argument must have the integer type of the fraction. -/
theorem redenominate_other {T S : IntTy} {f : Nat} {r : Raw} {d : ℤ} (hS : S ≠ T) (hn : 1 ≤ n)
    (hf : f ∈ [N.«trunc_redenominate», N.«floor_redenominate», N.«ceil_redenominate»,
      N.«round_redenominate», N.«redenominate»]) :
    value (invoke library n .global none f [] [.frac T o r, .int S d]) = illFormed := by
  have hS' : T ≠ S := fun h => hS h.symm
  simp only [List.mem_cons, List.not_mem_nil, or_false] at hf
  rcases hf with rfl | rfl | rfl | rfl | rfl
  all_goals
    step n
    go [hS, hS']
    try rfl

/-- A fraction times an integer. -/
theorem scale_val {T : IntTy} {r p : Raw} {q : ℚ} {d : ℤ} (hq : Denotes r q)
    (h : Fraction.arith T T o .multiplies (.fr r d) ⇓ p) : Denotes p (q * d) :=
  C39_mixed_arith_exact (a := .fr r d) ⟨hq, rfl⟩ h

theorem redenominate_means {T S : IntTy} {f : Nat} {r : Raw} {q x : ℚ} {d : ℤ} {v : Val}
    (hn : opsDepth o + 5 ≤ n) (hq : Denotes r q) (hd : d ≠ 0) (hf : ratRedenominate f q d = some x)
    (h : value (invoke library n .global none f [] [.frac T o r, .int S d]) ⇓ v) :
    Means o v (.rat x) := by
  have hdq : (d : ℚ) ≠ 0 := by exact_mod_cast hd
  unfold ratRedenominate at hf
  by_cases hS : S = T
  · subst hS
    split_ifs at hf with h1 h2 h3 h4 <;> cases hf
    · subst h1
      rw [fraction_truncRedenominate_ok S o r d hn] at h
      obtain ⟨s, hs, rfl⟩ := map_clean_inv h
      obtain ⟨p, hp, hs⟩ := bind_eq_clean.1 hs
      obtain ⟨k, hk, hs⟩ := bind_eq_clean.1 hs
      rw [pure_clean hs, (C29_trunc_exact (scale_val hq hp) hk).2.2.2]
      exact ⟨rfl, hd, rfl⟩
    · subst h3
      rw [fraction_floorRedenominate_ok S o r d hn] at h
      obtain ⟨s, hs, rfl⟩ := map_clean_inv h
      unfold Fraction.floorRedenominate at hs
      split at hs
      · rename_i h0
        obtain ⟨p, hp, hs⟩ := bind_eq_clean.1 hs
        obtain ⟨k, hk, hs⟩ := bind_eq_clean.1 hs
        have e : |(d : ℚ)| = d := abs_of_nonneg (by exact_mod_cast h0)
        rw [e] at h2 ⊢
        rw [pure_clean hs, (Fraction.floor_val (scale_val hq hp) hk).trans (if_neg h2)]
        exact ⟨rfl, hd, rfl⟩
      · rename_i h0
        obtain ⟨m, hm, hs⟩ := bind_eq_clean.1 hs
        obtain ⟨p, hp, hs⟩ := bind_eq_clean.1 hs
        obtain ⟨k, hk, hs⟩ := bind_eq_clean.1 hs
        obtain ⟨j, hj, hs⟩ := bind_eq_clean.1 hs
        have e : |(d : ℚ)| = ((-d : ℤ) : ℚ) := by
          rw [abs_of_neg (by exact_mod_cast not_le.1 h0)]; push_cast; rfl
        rw [(IntTy.neg_clean.1 hm).2] at hp
        rw [e] at h2 ⊢
        rw [pure_clean hs, (IntTy.neg_clean.1 hj).2, (Fraction.floor_val (scale_val hq hp) hk).trans (if_neg h2)]
        refine ⟨rfl, hd, ?_⟩
        simp only [Fraction.mk]
        push_cast
        rw [div_neg, neg_div]
    · subst h4
      rw [fraction_ceilRedenominate_ok S o r d hn] at h
      obtain ⟨s, hs, rfl⟩ := map_clean_inv h
      unfold Fraction.ceilRedenominate at hs
      split at hs
      · rename_i h0
        obtain ⟨p, hp, hs⟩ := bind_eq_clean.1 hs
        obtain ⟨k, hk, hs⟩ := bind_eq_clean.1 hs
        have e : |(d : ℚ)| = d := abs_of_nonneg (by exact_mod_cast h0)
        rw [e] at h2 ⊢
        rw [pure_clean hs, (Fraction.ceil_val (scale_val hq hp) hk).trans (if_neg h2)]
        exact ⟨rfl, hd, rfl⟩
      · rename_i h0
        obtain ⟨m, hm, hs⟩ := bind_eq_clean.1 hs
        obtain ⟨p, hp, hs⟩ := bind_eq_clean.1 hs
        obtain ⟨k, hk, hs⟩ := bind_eq_clean.1 hs
        obtain ⟨j, hj, hs⟩ := bind_eq_clean.1 hs
        have e : |(d : ℚ)| = ((-d : ℤ) : ℚ) := by
          rw [abs_of_neg (by exact_mod_cast not_le.1 h0)]; push_cast; rfl
        rw [(IntTy.neg_clean.1 hm).2] at hp
        rw [e] at h2 ⊢
        rw [pure_clean hs, (IntTy.neg_clean.1 hj).2, (Fraction.ceil_val (scale_val hq hp) hk).trans (if_neg h2)]
        refine ⟨rfl, hd, ?_⟩
        simp only [Fraction.mk]
        push_cast
        rw [div_neg, neg_div]
  · rw [redenominate_other hS (by omega)] at h
    · cases h
    · split_ifs at hf with h1 h2 h3 h4 <;> simp [*]

theorem roundRedenominate_means {T S : IntTy} {f : Nat} {r : Raw} {q : ℚ} {d : ℤ} {v : Val}
    (hn : opsDepth o + 6 ≤ n) (hq : Denotes r q) (hd : d ≠ 0)
    (hf : f ∈ [N.«round_redenominate», N.«redenominate»])
    (ho : o.SafeBased ∨ ¬ o.IgnoresSigns) (hr : ¬ (-1 < q * d ∧ q * d < -1 / 2))
    (h : value (invoke library n .global none f [] [.frac T o r, .int S d]) ⇓ v) :
    Means o v (.rat (⌊q * d + 1 / 2⌋ / d)) := by
  by_cases hS : S = T
  · subst hS
    have key : ∀ {s}, Fraction.roundRedenominate S o r d ⇓ s →
        Means o (.frac S o s) (.rat (⌊q * d + 1 / 2⌋ / d)) := by
      intro s hs
      obtain ⟨p, hp, hs⟩ := bind_eq_clean.1 hs
      obtain ⟨k, hk, hs⟩ := bind_eq_clean.1 hs
      rw [pure_clean hs, (Fraction.round_val (scale_val hq hp) (Or.inr ho) hk).trans (if_neg hr)]
      exact ⟨rfl, hd, rfl⟩
    simp only [List.mem_cons, List.not_mem_nil, or_false] at hf
    rcases hf with rfl | rfl
    · rw [fraction_roundRedenominate_ok S o r d (by omega)] at h
      obtain ⟨s, hs, rfl⟩ := map_clean_inv h
      exact key hs
    · rw [fraction_redenominate_default_ok S o r d (by omega)] at h
      obtain ⟨s, hs, rfl⟩ := map_clean_inv h
      exact key hs
  · rw [redenominate_other hS (by omega)] at h
    · cases h
    · simp only [List.mem_cons, List.not_mem_nil, or_false] at hf ⊢
      tauto

/-- Functions of the library. -/
theorem fun_means {T : IntTy} {f : Nat} {r : Raw} {q : ℚ} {m : Meaning} {v : Val}
    (hn : opsDepth o + 4 ≤ n) (hq : Denotes r q) (hf : ratFun f q = some m)
    (h : value (invoke library n .global none f [] [.frac T o r]) ⇓ v) : Means o v m := by
  have := opsDepth_ge o
  unfold ratFun at hf
  split_ifs at hf with h1 h2 h3 h4 h5 h6 h7 h8 h9 h10
  · subst h1; cases hf
    rw [fraction_abs_ok T o r (by omega)] at h
    obtain ⟨s, hs, rfl⟩ := map_clean_inv h
    exact ⟨rfl, (C27_abs_exact hq hs).1⟩
  · subst h2; cases hf
    rw [fraction_reduceDefault_ok T o r (by omega)] at h
    obtain ⟨s, hs, rfl⟩ := map_clean_inv h
    exact ⟨rfl, ((C20_reduce_preserves .normalizeSigns).1 hs q).2 hq⟩
  · subst h3; cases hf
    rw [fraction_normalizeSigns_ok T o r (by omega)] at h
    obtain ⟨s, hs, rfl⟩ := map_clean_inv h
    exact ⟨rfl, (C20_normalize_signs_preserves hs q).2 hq⟩
  · subst h4; cases hf
    rw [fraction_reciprocal_ok T o r (by omega)] at h
    rw [pure_clean h]
    exact ⟨rfl, (C26_reciprocal r).1 q hq h5⟩
  · subst h6; cases hf
    rw [fraction_trunc_ok T o r (by omega)] at h
    obtain ⟨s, hs, rfl⟩ := map_clean_inv h
    exact (C29_trunc_exact hq hs).2.2.2
  · subst h7; cases hf
    rw [fraction_floor_ok T o r (by omega)] at h
    obtain ⟨s, hs, rfl⟩ := map_clean_inv h
    exact (Fraction.floor_val hq hs).trans (if_neg h8)
  · subst h9; cases hf
    rw [fraction_ceil_ok T o r (by omega)] at h
    obtain ⟨s, hs, rfl⟩ := map_clean_inv h
    exact (Fraction.ceil_val hq hs).trans (if_neg h10)
  · obtain ⟨b, hb, rfl⟩ := Option.map_eq_some_iff.1 hf
    rcases Option.or_eq_some_iff.1 hb with hb | ⟨-, hb⟩
    · exact query_means hn hq hb h
    · exact size_means hn hq hb h

/-- Rounding. -/
theorem round_means {T : IntTy} {r : Raw} {q : ℚ} {v : Val} (hn : opsDepth o + 4 ≤ n)
    (hq : Denotes r q) (hs : o.SafeBased ∨ ¬ o.IgnoresSigns) (hr : ¬ (-1 < q ∧ q < -1 / 2))
    (h : value (invoke library n .global none N.«round» [] [.frac T o r]) ⇓ v) :
    Means o v (.int ⌊q + 1 / 2⌋) := by
  rw [fraction_round_ok T o r (by omega)] at h
  obtain ⟨s, hs', rfl⟩ := map_clean_inv h
  exact (Fraction.round_val hq (Or.inr hs) hs').trans (if_neg hr)

/-- The parts of a reduced fraction. -/
theorem reduced_parts {T : IntTy} {r s : Raw} {q : ℚ} (hq : Denotes r q)
    (h : r.reduce T .normalizeSigns ⇓ s) : s.num = q.num ∧ s.den = q.den := by
  have h1 := ((C20_reduce_preserves .normalizeSigns).1 h q).2 hq
  obtain ⟨h2, h3⟩ := C21_reduce_canonical hq.1 h
  rw [← h1.2]
  exact ⟨(Rat.num_div_eq_of_coprime h2 h3).symm, (Rat.den_div_eq_of_coprime h2 h3).symm⟩

theorem MeansAll.lookup (h : MeansAll o ents M) {x : Nat} {m : Meaning}
    (hx : M.lookup x = some m) : ∃ v, ents.lookup x = some v ∧ Means o v m := by
  unfold MeansAll at h
  induction h with
  | nil => cases hx
  | @cons p q ps qs hpq _ ih =>
    obtain ⟨a, v⟩ := p
    obtain ⟨b, k⟩ := q
    obtain ⟨rfl, hv⟩ := hpq
    by_cases hxa : x = a
    · subst hxa
      simp only [List.lookup_cons_self, Option.some.injEq] at hx ⊢
      exact ⟨v, rfl, hx ▸ hv⟩
    · have hb : (x == a) = false := by simpa using hxa
      simp only [List.lookup_cons, hb] at hx ⊢
      exact ih hx

theorem lookup_ne {β : Type} {x a : Nat} {v : β} {l : List (Nat × β)} (h : x ≠ a) :
    List.lookup x ((a, v) :: l) = l.lookup x := by
  have hb : (x == a) = false := by simpa using h
  simp [List.lookup_cons, hb]

/-- A call of a function of the library in the code of a user. -/
theorem call_user {inv : Invoke} {f : Nat} {args : List Val} (hf : tys.lookup f = none) :
    call library inv (userEnv tys ents) 0 f [] args = value (inv .global none f [] args) := by
  have h0 : ¬ (0 : Nat) = N.«std» := by decide
  have hc : calledType (userEnv tys ents) f [] = none := hf
  have h1 : assemble (userEnv tys ents).scope (userEnv tys ents).ents = none := rfl
  have h2 : (userEnv tys ents).scope = .global := rfl
  unfold call
  rw [if_neg h0, if_pos rfl, hc, h1, h2, ite_self]

/-- A call of a type. -/
theorem call_type {inv : Invoke} {f : Nat} {t : TVal} {args : List Val}
    (hf : tys.lookup f = some t) :
    call library inv (userEnv tys ents) 0 f [] args =
      match args with
      | [v] => castTo inv t v
      | args => construct inv t args := by
  have h0 : ¬ (0 : Nat) = N.«std» := by decide
  have hc : calledType (userEnv tys ents) f [] = some t := hf
  unfold call
  rw [if_neg h0, if_pos rfl, hc]
  rcases args with _ | ⟨a, _ | ⟨b, as⟩⟩ <;> rfl

theorem Means.int {v : Val} {k : ℤ} (h : Means o v (.int k)) : ∃ T, v = .int T k := by
  cases v <;> simp only [Means] at h
  exact ⟨_, by rw [h]⟩

theorem Means.rat {v : Val} {q : ℚ} (h : Means o v (.rat q)) :
    ∃ T r, v = .frac T o r ∧ Denotes r q := by
  cases v <;> simp only [Means] at h
  obtain ⟨rfl, h⟩ := h
  exact ⟨_, _, rfl, h⟩

theorem Means.bool {v : Val} {b : Bool} (h : Means o v (.bool b)) : v = .bool b := by
  cases v <;> simp only [Means] at h
  rw [h]

theorem Means.mix {v : Val} {q : ℚ} (h : Means o v (.mix q)) :
    ∃ W F m, v = .mixed W F o m ∧ m.Invariant ∧ m.Denotes q := by
  cases v <;> simp only [Means] at h
  obtain ⟨rfl, h⟩ := h
  exact ⟨_, _, _, rfl, h⟩

/-! ### Mixed numbers -/

local notation "mixedOf" W:max F:max o:max =>
  (Scope.mk N.«mixed_number» [TVal.int W, TVal.int F, TVal.ops o])

theorem mixed_of_mixed (W F W' F' : IntTy) (o : Ops) (m : Mixed) (h : 1 ≤ n) :
    value (invoke library n (mixedOf W F o) none N.«mixed_number» [] [.mixed W' F' o m]) =
      illFormed := by
  step n
  rfl

theorem mixed_of_int (W F S : IntTy) (o : Ops) (w : Int) (h : opsDepth o + 11 ≤ n) :
    value (invoke library n (mixedOf W F o) none N.«mixed_number» [] [.int S w]) =
      (do let w ← toTy W S w; Val.mixed W F o <$> Mixed.mk' W F o w) := by
  have := opsDepth_ge o
  step n
  by_cases hS : S = W
  · subst hS; go [Mixed.mk', toTy]
  · go [Mixed.mk', toTy, hS]

theorem mixed_of_two (W F S T : IntTy) (o : Ops) (w : Int) (f : Raw) (h : opsDepth o + 11 ≤ n) :
    value (invoke library n (mixedOf W F o) none N.«mixed_number» [] [.int S w, .frac T o f]) =
      if T = F then (do let w ← toTy W S w; Val.mixed W F o <$> Mixed.mk' W F o w f)
      else illFormed := by
  have := opsDepth_ge o
  step n
  by_cases hS : S = W <;> by_cases hT : T = F
  · subst hS hT; go [Mixed.mk', toTy]
  · subst hS; go [Mixed.mk', toTy, hT]; rfl
  · subst hT; go [Mixed.mk', toTy, hS]
  · go [Mixed.mk', toTy, hS, hT]; rfl

theorem copyTo_val {T S : IntTy} {f g : Raw} (h : copyTo T S f ⇓ g) : g = f := by
  unfold copyTo at h
  split at h
  · exact pure_clean h
  · exact (Raw.conv_clean.1 h).2

theorem arith_sub_int {S : IntTy} {f d : Raw} {x : ℚ} {w : ℤ} (hx : Denotes f x)
    (h : Fraction.arith S S o .minus (.fr f w) ⇓ d) : Denotes d (x - w) :=
  C39_mixed_arith_exact (a := .fr f w) ⟨hx, rfl⟩ h

theorem ofFractionT_exact {W F S : IntTy} {f : Raw} {m : Mixed} {x : ℚ} (hx : Denotes f x)
    (h : ofFractionT W F o S f ⇓ m) : m.Invariant ∧ m.Denotes x := by
  obtain ⟨t, ht, h1⟩ := bind_eq_clean.1 h
  obtain ⟨w, hw, h2⟩ := bind_eq_clean.1 h1
  obtain ⟨w', hw', h3⟩ := bind_eq_clean.1 h2
  obtain ⟨d, hd, h4⟩ := bind_eq_clean.1 h3
  obtain ⟨g, hg, h5⟩ := bind_eq_clean.1 h4
  obtain ⟨-, e1⟩ := IntTy.conv_clean.1 hw
  obtain ⟨-, e2⟩ := IntTy.conv_clean.1 hw'
  have e3 := copyTo_val hg
  subst e1 e2 e3
  rw [pure_clean h5]
  have k2 := (C29_trunc_exact hx ht).2.2.2
  have k1 := arith_sub_int hx hd
  have k3 := sub_ratTrunc x
  rw [← k2] at k3
  exact ⟨⟨_, k1, k3⟩, _, k1, by push_cast; ring⟩

theorem addT_exact {W₁ F₁ W₂ F₂ : IntTy} {l r m : Mixed} {x y : ℚ} (hl : l.Denotes x)
    (hr : r.Denotes y) (h : addT W₁ F₁ W₂ F₂ o l r ⇓ m) : m.Invariant ∧ m.Denotes (x + y) := by
  obtain ⟨lw, hlw, h1⟩ := bind_eq_clean.1 h
  obtain ⟨rw', hrw, h2⟩ := bind_eq_clean.1 h1
  obtain ⟨w, hw, h3⟩ := bind_eq_clean.1 h2
  obtain ⟨lf, hlf, h4⟩ := bind_eq_clean.1 h3
  obtain ⟨rf, hrf, h5⟩ := bind_eq_clean.1 h4
  obtain ⟨f, hf, h6⟩ := bind_eq_clean.1 h5
  obtain ⟨-, e1⟩ := IntTy.conv_clean.1 hlw
  obtain ⟨-, e2⟩ := IntTy.conv_clean.1 hrw
  have e3 := copyTo_val hlf
  have e4 := copyTo_val hrf
  obtain ⟨hrange, e5⟩ := IntTy.add_clean.1 hw
  subst e1 e2 e3 e4 e5
  obtain ⟨x', hx, rfl⟩ := hl
  obtain ⟨y', hy, rfl⟩ := hr
  obtain ⟨-, hi, -, hv⟩ := Mixed.mk_ok hrange (.inr rfl) h6
  have e : Denotes f (x' + y') := C39_mixed_arith_exact (a := .ff _ _) ⟨hx, hy⟩ hf
  have := hv rfl _ e
  push_cast at this
  refine ⟨hi, ?_⟩
  convert this using 1
  ring

theorem asFractionT_exact {W F : IntTy} {m : Mixed} {r : Raw} {q : ℚ} (hq : m.Denotes q)
    (h : asFractionT W F o m ⇓ r) : Denotes r q := by
  obtain ⟨w, hw, h1⟩ := bind_eq_clean.1 h
  obtain ⟨f, hf, h2⟩ := bind_eq_clean.1 h1
  obtain ⟨-, e1⟩ := IntTy.conv_clean.1 hw
  have e2 := copyTo_val hf
  subst e1 e2
  obtain ⟨y, hy, rfl⟩ := hq
  exact C39_mixed_arith_exact (a := .rf _ _) ⟨rfl, hy⟩ h2

theorem fixSigns_exact {W F : IntTy} {m m' : Mixed} {x : ℚ} (h : m.fixSigns W F o ⇓ m')
    (hx : Denotes m.frac x) (hx1 : |x| < 1) : m'.Invariant ∧ m'.Denotes (m.whole + x) := by
  unfold Mixed.fixSigns at h
  rw [abs_lt] at hx1
  split at h
  · rename_i hc
    rw [isNegative_iff hx] at hc
    obtain ⟨w', hw', h⟩ := bind_eq_clean.1 h
    obtain ⟨f, hf, h⟩ := bind_eq_clean.1 h
    rw [pure_clean h]
    obtain ⟨-, rfl⟩ := IntTy.sub_clean.1 hw'
    have hv := arith_int_plus hx hf
    push_cast at hv
    exact ⟨⟨_, hv, by rw [abs_lt]; constructor <;> linarith, fun _ => by linarith,
      fun hneg => by simp only at hneg; omega⟩, _, hv, by push_cast; ring⟩
  · split at h
    · rename_i _ hc
      rw [isPositive_iff hx] at hc
      obtain ⟨w', hw', h⟩ := bind_eq_clean.1 h
      obtain ⟨k, hk, h⟩ := bind_eq_clean.1 h
      obtain ⟨f, hf, h⟩ := bind_eq_clean.1 h
      rw [pure_clean h]
      obtain ⟨-, rfl⟩ := IntTy.add_clean.1 hw'
      obtain ⟨-, rfl⟩ := IntTy.neg_clean.1 hk
      have hv := arith_int_plus hx hf
      push_cast at hv
      exact ⟨⟨_, hv, by rw [abs_lt]; constructor <;> linarith,
        fun hpos => by simp only at hpos; omega, fun _ => by linarith⟩, _, hv, by push_cast; ring⟩
    · rename_i h1 h2
      rw [pure_clean h]
      rw [isNegative_iff hx] at h1
      rw [isPositive_iff hx] at h2
      refine ⟨⟨x, hx, by rw [abs_lt]; exact hx1, fun h => ?_, fun h => ?_⟩, x, hx, rfl⟩
      · by_contra hc; exact h1 ⟨h, not_le.1 hc⟩
      · by_contra hc; exact h2 ⟨h, not_le.1 hc⟩

theorem mk_exact {W F : IntTy} {w : ℤ} {f : Raw} {m : Mixed} {x : ℚ} (hx : Denotes f x)
    (h : Mixed.mk' W F o w f ⇓ m) : m.Invariant ∧ m.Denotes (w + x) := by
  obtain ⟨m1, h1, h2⟩ := bind_eq_clean.1 h
  obtain ⟨-, -, h3⟩ := Mixed.fixImproper_ok (.inr rfl) h1
  obtain ⟨y, hy, hy1, hyv⟩ := h3 x hx
  have := fixSigns_exact h2 hy hy1
  rwa [hyv rfl] at this

/-- The parts of a mixed number. -/
theorem mixed_parts {m : Mixed} {q : ℚ} (hi : m.Invariant) (hq : m.Denotes q) :
    m.whole = ratTrunc q ∧ Denotes m.frac (q - ratTrunc q) := by
  obtain ⟨y, hy, h1, h2, h3⟩ := hi
  obtain ⟨y', hy', rfl⟩ := hq
  have e := hy'.unique hy
  subst e
  have ht : ratTrunc ((m.whole : ℚ) + y') = m.whole := by
    rw [abs_lt] at h1
    unfold ratTrunc
    rcases lt_trichotomy m.whole 0 with hw | hw | hw
    · have hy0 := h3 hw
      have hw' : (m.whole : ℚ) < 0 := by exact_mod_cast hw
      rw [if_neg (by linarith), Int.ceil_eq_iff]
      constructor <;> linarith
    · rw [hw]
      simp only [Int.cast_zero, zero_add]
      split
      · rw [Int.floor_eq_iff]; push_cast; constructor <;> linarith
      · rw [Int.ceil_eq_iff]; push_cast; constructor <;> linarith
    · have hy0 := h2 hw
      have hw' : (0 : ℚ) < m.whole := by exact_mod_cast hw
      rw [if_pos (by linarith), Int.floor_eq_iff]
      constructor <;> linarith
  rw [ht]
  exact ⟨rfl, by simpa using hy⟩

/-- A fraction made of a number. -/
theorem construct_rat {T : IntTy} {u v : Val} {m : Meaning} {q : ℚ} (hn : 4 ≤ n)
    (hu : Means o u m) (hq : m.rat? = some q)
    (h : construct (invoke library n) (.frac T o) [u] ⇓ v) : Means o v (.rat q) := by
  cases m with
  | bool b => cases hq
  | mix p => cases hq
  | int k =>
    obtain ⟨A, rfl⟩ := hu.int
    cases hq
    have hne : ¬ (Val.int A k).type = .frac T o := by simp [Val.type]
    simp only [construct, hne, if_false] at h
    change value (invoke library n ⟨N.«fraction», [.int T, .ops o]⟩ none N.«fraction» [] [.int A k]) ⇓ v at h
    rw [fraction_mk_one_ok (by omega)] at h
    obtain ⟨r, hr, rfl⟩ := map_clean_inv h
    obtain ⟨x, hx, hr⟩ := bind_eq_clean.1 hr
    rw [pure_clean hr, toTy_val hx]
    exact ⟨rfl, by simp [Fraction.mk, Denotes]⟩
  | rat p =>
    obtain ⟨S, r, rfl, hr⟩ := hu.rat
    cases hq
    by_cases hT : S = T
    · subst hT
      simp only [construct, Val.type, if_true] at h
      rw [pure_clean h]
      exact ⟨rfl, hr⟩
    · have hne : ¬ (Val.frac S o r).type = .frac T o := by simp [Val.type, hT]
      simp only [construct, hne, if_false] at h
      change value (invoke library n ⟨N.«fraction», [.int T, .ops o]⟩ none N.«fraction» [] [.frac S o r]) ⇓ v at h
      rw [fraction_ofOther_ok hn, if_neg hT] at h
      obtain ⟨s, hs, rfl⟩ := map_clean_inv h
      rw [(Raw.conv_clean.1 hs).2]
      exact ⟨rfl, hr⟩

/-- A mixed number made of a number. -/
theorem construct_mix {W F : IntTy} {u v : Val} {m : Meaning} {q : ℚ} (hn : opsDepth o + 11 ≤ n)
    (hu : Means o u m) (hq : m.rat? = some q)
    (h : construct (invoke library n) (.mixed W F o) [u] ⇓ v) : Means o v (.mix q) := by
  cases m with
  | bool b => cases hq
  | mix p => cases hq
  | int k =>
    obtain ⟨A, rfl⟩ := hu.int
    cases hq
    have hne : ¬ (Val.int A k).type = .mixed W F o := by simp [Val.type]
    simp only [construct, hne, if_false] at h
    change value (invoke library n (mixedOf W F o) none N.«mixed_number» [] [.int A k]) ⇓ v at h
    rw [mixed_of_int W F A o k hn] at h
    obtain ⟨w, hw, h⟩ := bind_eq_clean.1 h
    obtain ⟨r, hr, rfl⟩ := map_clean_inv h
    rw [toTy_val hw] at hr
    have := mk_exact (x := 0) ⟨by decide, by simp [Fraction.default]⟩ hr
    rw [add_zero] at this
    exact ⟨rfl, this⟩
  | rat p =>
    obtain ⟨S, r, rfl, hr⟩ := hu.rat
    cases hq
    have hne : ¬ (Val.frac S o r).type = .mixed W F o := by simp [Val.type]
    simp only [construct, hne, if_false] at h
    change value (invoke library n (mixedOf W F o) none N.«mixed_number» [] [.frac S o r]) ⇓ v at h
    rw [mixed_ofFractionT_ok W F o S r (by omega)] at h
    obtain ⟨s, hs, rfl⟩ := map_clean_inv h
    exact ⟨rfl, ofFractionT_exact hr hs⟩

/-- A mixed number made of its parts. -/
theorem construct_mix_two {W F A B : IntTy} {v : Val} {x : ℤ} {r : Raw} {y : ℚ}
    (hn : opsDepth o + 11 ≤ n) (hr : Denotes r y)
    (h : construct (invoke library n) (.mixed W F o) [.int A x, .frac B o r] ⇓ v) :
    Means o v (.mix (x + y)) := by
  change value (invoke library n (mixedOf W F o) none N.«mixed_number» [] [.int A x, .frac B o r]) ⇓ v at h
  rw [mixed_of_two W F A B o x r hn] at h
  split at h
  · obtain ⟨w, hw, h⟩ := bind_eq_clean.1 h
    obtain ⟨m, hm, rfl⟩ := map_clean_inv h
    rw [toTy_val hw] at hm
    exact ⟨rfl, mk_exact hr hm⟩
  · cases h

/-- A fraction made of two integers. -/
theorem construct_two {T A B : IntTy} {v : Val} {x y : ℤ} (hn : 4 ≤ n) (hy : y ≠ 0)
    (h : construct (invoke library n) (.frac T o) [.int A x, .int B y] ⇓ v) :
    Means o v (.rat (x / y)) := by
  change value (invoke library n ⟨N.«fraction», [.int T, .ops o]⟩ none N.«fraction» [] [.int A x, .int B y]) ⇓ v at h
  rw [fraction_mk_ok (by omega)] at h
  obtain ⟨r, hr, rfl⟩ := map_clean_inv h
  obtain ⟨x', hx, hr⟩ := bind_eq_clean.1 hr
  obtain ⟨y', hy', hr⟩ := bind_eq_clean.1 hr
  rw [pure_clean hr, toTy_val hx, toTy_val hy']
  exact ⟨rfl, hy, rfl⟩

/-- Expressions. -/
theorem sem_sound {e : Header.Expr} {m : Meaning} (hn : policyDepth o ≤ n) (hM : MeansAll o ents M)
    (hs : Sem o tys M e m) : ∀ {v : Val}, userEval n tys ents e ⇓ v → Means o v m := by
  rw [policyDepth_eq] at hn
  have two : ∀ {op : BinOp} {a b : Header.Expr} {v : Val}, op ≠ .and → op ≠ .or →
      userEval n tys ents (.bin op a b) ⇓ v → ∃ x y, userEval n tys ents a ⇓ x ∧ userEval n tys ents b ⇓ y ∧
        binary (invoke library n) op x y ⇓ v := by
    intro op a b v h1 h2 h
    simp only [userEval, eval] at h ⊢
    obtain ⟨x, hx, h⟩ := bind_eq_clean.1 h
    obtain ⟨y, hy, h⟩ := bind_eq_clean.1 h
    exact ⟨x, y, hx, hy, h⟩
  have one : ∀ {f : Nat} {e : Header.Expr} {v : Val},
      userEval n tys ents (.call 0 f [] (.cons e .nil)) ⇓ v → ∃ x, userEval n tys ents e ⇓ x ∧
        call library (invoke library n) (userEnv tys ents) 0 f [] [x] ⇓ v := by
    intro f e v h
    simp only [userEval, eval, evalArgs, evalTys, orIll, pure_bind] at h
    obtain ⟨us, hus, h⟩ := bind_eq_clean.1 h
    obtain ⟨u, hu, hus⟩ := bind_eq_clean.1 hus
    rw [pure_clean hus] at h
    exact ⟨u, hu, h⟩
  induction hs with
  | num k => intro v h; rw [pure_clean h]; rfl
  | var hx =>
    intro v h
    obtain ⟨u, hu, hm⟩ := hM.lookup hx
    simp only [userEval, eval, evalVar, if_true, userEnv, hu, orIll] at h
    rwa [pure_clean h]
  | negInt _ ih =>
    intro v h
    obtain ⟨u, hu, h⟩ := bind_eq_clean.1 h
    obtain ⟨T, rfl⟩ := (ih hu).int
    obtain ⟨k, hk, rfl⟩ := map_clean_inv h
    exact (IntTy.neg_clean.1 hk).2
  | negRat _ ih =>
    intro v h
    obtain ⟨u, hu, h⟩ := bind_eq_clean.1 h
    obtain ⟨T, r, rfl, hr⟩ := (ih hu).rat
    simp only [unary] at h
    rw [fraction_neg_ok T o r (by omega)] at h
    obtain ⟨s, hs, rfl⟩ := map_clean_inv h
    exact ⟨rfl, C06_neg_exact hr hs⟩
  | posInt _ ih =>
    intro v h
    obtain ⟨u, hu, h⟩ := bind_eq_clean.1 h
    obtain ⟨T, rfl⟩ := (ih hu).int
    rw [pure_clean h]; rfl
  | posRat _ ih =>
    intro v h
    obtain ⟨u, hu, h⟩ := bind_eq_clean.1 h
    obtain ⟨T, r, rfl, hr⟩ := (ih hu).rat
    simp only [unary] at h
    rw [fraction_pos_ok T o r (by omega)] at h
    rw [pure_clean h]
    exact ⟨rfl, hr⟩
  | not _ ih =>
    intro v h
    obtain ⟨u, hu, h⟩ := bind_eq_clean.1 h
    rw [(ih hu).bool] at h
    rw [pure_clean h]; rfl
  | @ints op a b x y z _ _ hz iha ihb =>
    intro v h
    obtain ⟨u, w, hu, hw, h⟩ := two (by rintro rfl; cases hz) (by rintro rfl; cases hz) h
    obtain ⟨A, rfl⟩ := (iha hu).int
    obtain ⟨B, rfl⟩ := (ihb hw).int
    exact int_op_means hz h
  | @rats op a b x y z _ _ hz iha ihb =>
    intro v h
    obtain ⟨u, w, hu, hw, h⟩ := two (by rintro rfl; cases hz) (by rintro rfl; cases hz) h
    obtain ⟨A, l, rfl, hl⟩ := (iha hu).rat
    obtain ⟨B, r, rfl, hr⟩ := (ihb hw).rat
    exact mixed_op_means (a := .ff l r) (L := A) (R := B) (by omega) ⟨hl, hr⟩ hz h
  | @ratInt op a b x y z _ _ hz iha ihb =>
    intro v h
    obtain ⟨u, w, hu, hw, h⟩ := two (by rintro rfl; cases hz) (by rintro rfl; cases hz) h
    obtain ⟨A, l, rfl, hl⟩ := (iha hu).rat
    obtain ⟨B, rfl⟩ := (ihb hw).int
    exact mixed_op_means (a := .fr l y) (L := A) (R := B) (by omega) ⟨hl, rfl⟩ hz h
  | @intRat op a b y x z _ _ hz iha ihb =>
    intro v h
    obtain ⟨u, w, hu, hw, h⟩ := two (by rintro rfl; cases hz) (by rintro rfl; cases hz) h
    obtain ⟨A, rfl⟩ := (iha hu).int
    obtain ⟨B, r, rfl, hr⟩ := (ihb hw).rat
    exact mixed_op_means (a := .rf x r) (L := A) (R := B) (by omega) ⟨rfl, hr⟩ hz h
  | @order op a b x y z hsb _ _ hz iha ihb =>
    intro v h
    obtain ⟨u, w, hu, hw, h⟩ := two (by rintro rfl; cases hz) (by rintro rfl; cases hz) h
    obtain ⟨A, l, rfl, hl⟩ := (iha hu).rat
    obtain ⟨B, r, rfl, hr⟩ := (ihb hw).rat
    exact order_means (by omega) hsb hl hr hz h
  | andFalse _ ih =>
    intro v h
    obtain ⟨u, hu, h⟩ := bind_eq_clean.1 h
    rw [(ih hu).bool] at h
    rw [pure_clean h]; rfl
  | andTrue _ _ iha ihb =>
    intro v h
    obtain ⟨u, hu, h⟩ := bind_eq_clean.1 h
    rw [(iha hu).bool] at h
    exact ihb h
  | orTrue _ ih =>
    intro v h
    obtain ⟨u, hu, h⟩ := bind_eq_clean.1 h
    rw [(ih hu).bool] at h
    rw [pure_clean h]; rfl
  | orFalse _ _ iha ihb =>
    intro v h
    obtain ⟨u, hu, h⟩ := bind_eq_clean.1 h
    rw [(iha hu).bool] at h
    exact ihb h
  | condTrue _ _ iha ihb =>
    intro v h
    obtain ⟨u, hu, h⟩ := bind_eq_clean.1 h
    rw [(iha hu).bool] at h
    exact ihb h
  | condFalse _ _ iha ihb =>
    intro v h
    obtain ⟨u, hu, h⟩ := bind_eq_clean.1 h
    rw [(iha hu).bool] at h
    exact ihb h
  | call hl _ hf ih =>
    intro v h
    obtain ⟨u, hu, h⟩ := one h
    rw [call_user hl] at h
    obtain ⟨T, r, rfl, hr⟩ := (ih hu).rat
    exact fun_means (by omega) hr hf h
  | round hl _ ho hr ih =>
    intro v h
    obtain ⟨u, hu, h⟩ := one h
    rw [call_user hl] at h
    obtain ⟨T, r, rfl, hq⟩ := (ih hu).rat
    exact round_means (by omega) hq ho hr h
  | redenominate hl _ _ hd hf iha ihb =>
    intro v h
    simp only [userEval, eval, evalArgs, evalTys, orIll, pure_bind] at h
    obtain ⟨us, hus, h⟩ := bind_eq_clean.1 h
    obtain ⟨u, hu, hus⟩ := bind_eq_clean.1 hus
    obtain ⟨us', hw, hus⟩ := bind_eq_clean.1 hus
    obtain ⟨w, hw, hw'⟩ := bind_eq_clean.1 hw
    rw [pure_clean hus, pure_clean hw', call_user hl] at h
    obtain ⟨A, r, rfl, hr⟩ := (iha hu).rat
    obtain ⟨B, rfl⟩ := (ihb hw).int
    exact redenominate_means (by omega) hr hd hf h
  | roundRedenominate hf hl _ _ hd ho hr iha ihb =>
    intro v h
    simp only [userEval, eval, evalArgs, evalTys, orIll, pure_bind] at h
    obtain ⟨us, hus, h⟩ := bind_eq_clean.1 h
    obtain ⟨u, hu, hus⟩ := bind_eq_clean.1 hus
    obtain ⟨us', hw, hus⟩ := bind_eq_clean.1 hus
    obtain ⟨w, hw, hw'⟩ := bind_eq_clean.1 hw
    rw [pure_clean hus, pure_clean hw', call_user hl] at h
    obtain ⟨A, r, rfl, hq⟩ := (iha hu).rat
    obtain ⟨B, rfl⟩ := (ihb hw).int
    exact roundRedenominate_means (by omega) hq hd hf ho hr h
  | reducedNum hf hl _ ih =>
    intro v h
    obtain ⟨w, hw, h⟩ := bind_eq_clean.1 h
    obtain ⟨u, hu, hw⟩ := one hw
    rw [call_user hl] at hw
    obtain ⟨T, r, rfl, hq⟩ := (ih hu).rat
    rw [fraction_reduceDefault_ok T o r (by omega)] at hw
    obtain ⟨s, hs, rfl⟩ := map_clean_inv hw
    simp only [Val.type, TVal.scope] at h
    simp only [List.mem_cons, List.not_mem_nil, or_false] at hf
    rcases hf with rfl | rfl
    · rw [fraction_numerator_ok (by omega)] at h
      rw [pure_clean h]
      exact (reduced_parts hq hs).1
    · rw [fraction_num_ok (by omega)] at h
      rw [pure_clean h]
      exact (reduced_parts hq hs).1
  | reducedDen hf hl _ ih =>
    intro v h
    obtain ⟨w, hw, h⟩ := bind_eq_clean.1 h
    obtain ⟨u, hu, hw⟩ := one hw
    rw [call_user hl] at hw
    obtain ⟨T, r, rfl, hq⟩ := (ih hu).rat
    rw [fraction_reduceDefault_ok T o r (by omega)] at hw
    obtain ⟨s, hs, rfl⟩ := map_clean_inv hw
    simp only [Val.type, TVal.scope] at h
    simp only [List.mem_cons, List.not_mem_nil, or_false] at hf
    rcases hf with rfl | rfl
    · rw [fraction_denominator_ok (by omega)] at h
      rw [pure_clean h]
      exact (reduced_parts hq hs).2
    · rw [fraction_den_ok (by omega)] at h
      rw [pure_clean h]
      exact (reduced_parts hq hs).2
  | make hl _ _ hy iha ihb =>
    intro v h
    simp only [userEval, eval, evalArgs, evalTys, orIll, pure_bind] at h
    obtain ⟨us, hus, h⟩ := bind_eq_clean.1 h
    obtain ⟨u, hu, hus⟩ := bind_eq_clean.1 hus
    obtain ⟨us', hw, hus⟩ := bind_eq_clean.1 hus
    obtain ⟨w, hw, hw'⟩ := bind_eq_clean.1 hw
    rw [pure_clean hus, pure_clean hw', call_type hl] at h
    obtain ⟨A, rfl⟩ := (iha hu).int
    obtain ⟨B, rfl⟩ := (ihb hw).int
    exact construct_two (by omega) hy h
  | makeInt hl _ ih =>
    intro v h
    obtain ⟨u, hu, h⟩ := one h
    rw [call_type hl] at h
    obtain ⟨A, rfl⟩ := (ih hu).int
    obtain ⟨k, hk, rfl⟩ := map_clean_inv h
    exact (IntTy.conv_clean.1 hk).2
  | makeRat hl _ hq ih =>
    intro v h
    obtain ⟨u, hu, h⟩ := one h
    rw [call_type hl] at h
    exact construct_rat (by omega) (ih hu) hq h
  | castInt hl _ ih =>
    intro v h
    simp only [userEval, eval, userEnv, hl, orIll, pure_bind] at h
    obtain ⟨u, hu, h⟩ := bind_eq_clean.1 h
    obtain ⟨A, rfl⟩ := (ih hu).int
    obtain ⟨k, hk, rfl⟩ := map_clean_inv h
    exact (IntTy.conv_clean.1 hk).2
  | castRat hl _ hq ih =>
    intro v h
    simp only [userEval, eval, userEnv, hl, orIll, pure_bind] at h
    obtain ⟨u, hu, h⟩ := bind_eq_clean.1 h
    exact construct_rat (by omega) (ih hu) hq h
  | negMix _ ih =>
    intro v h
    obtain ⟨u, hu, h⟩ := bind_eq_clean.1 h
    obtain ⟨W, F, m, rfl, hi, hq⟩ := (ih hu).mix
    simp only [unary] at h
    rw [mixed_neg_ok W F o m (by omega)] at h
    obtain ⟨s, hs, rfl⟩ := map_clean_inv h
    have := Mixed.neg_ok hs
    exact ⟨rfl, this.1, this.2.2 _ hq⟩
  | posMix _ ih =>
    intro v h
    obtain ⟨u, hu, h⟩ := bind_eq_clean.1 h
    obtain ⟨W, F, m, rfl, hi, hq⟩ := (ih hu).mix
    simp only [unary] at h
    rw [mixed_pos_ok W F o m (by omega)] at h
    rw [pure_clean h]
    exact ⟨rfl, hi, hq⟩
  | mixMix _ _ iha ihb =>
    intro v h
    obtain ⟨u, w, hu, hw, h⟩ := two (by simp) (by simp) h
    obtain ⟨W₁, F₁, l, rfl, -, hl⟩ := (iha hu).mix
    obtain ⟨W₂, F₂, r, rfl, -, hr⟩ := (ihb hw).mix
    simp only [binary, opName] at h
    rw [mixed_addT_ok W₁ F₁ W₂ F₂ o l r (by omega)] at h
    obtain ⟨s, hs, rfl⟩ := map_clean_inv h
    exact ⟨rfl, addT_exact hl hr hs⟩
  | @mixRat a b m x y _ _ hy iha ihb =>
    intro v h
    obtain ⟨u, w, hu, hw, h⟩ := two (by simp) (by simp) h
    obtain ⟨W₁, F₁, l, rfl, -, hl⟩ := (iha hu).mix
    cases m with
    | bool b => cases hy
    | mix p => cases hy
    | int k =>
      cases hy
      obtain ⟨A, rfl⟩ := (ihb hw).int
      simp only [binary, opName] at h
      rw [mixed_addWhole_ok W₁ F₁ A o l k (by omega)] at h
      obtain ⟨s, hs, rfl⟩ := map_clean_inv h
      have := Mixed.addWhole_ok hs
      exact ⟨rfl, this.1, this.2.2 _ hl⟩
    | rat p =>
      cases hy
      obtain ⟨A, r, rfl, hr⟩ := (ihb hw).rat
      simp only [binary, opName] at h
      rw [mixed_addFractionT_ok W₁ F₁ A o l r (by omega)] at h
      obtain ⟨s, hs, rfl⟩ := map_clean_inv h
      obtain ⟨r', hr', hs⟩ := bind_eq_clean.1 hs
      exact ⟨rfl, addT_exact hl (ofFractionT_exact hr hr').2 hs⟩
  | @ratMix a b m x y _ hx _ iha ihb =>
    intro v h
    obtain ⟨u, w, hu, hw, h⟩ := two (by simp) (by simp) h
    obtain ⟨W₁, F₁, l, rfl, -, hl⟩ := (ihb hw).mix
    cases m with
    | bool b => cases hx
    | mix p => cases hx
    | int k =>
      cases hx
      obtain ⟨A, rfl⟩ := (iha hu).int
      simp only [binary, opName] at h
      rw [mixed_wholeAdd_ok W₁ F₁ A o l k (by omega)] at h
      obtain ⟨s, hs, rfl⟩ := map_clean_inv h
      have := Mixed.addWhole_ok hs
      rw [add_comm]
      exact ⟨rfl, this.1, this.2.2 _ hl⟩
    | rat p =>
      cases hx
      obtain ⟨A, r, rfl, hr⟩ := (iha hu).rat
      simp only [binary, opName] at h
      rw [mixed_fractionAddT_ok W₁ F₁ A o l r (by omega)] at h
      obtain ⟨s, hs, rfl⟩ := map_clean_inv h
      obtain ⟨r', hr', hs⟩ := bind_eq_clean.1 hs
      rw [add_comm]
      exact ⟨rfl, addT_exact hl (ofFractionT_exact hr hr').2 hs⟩
  | makeMix hl _ hq ih =>
    intro v h
    obtain ⟨u, hu, h⟩ := one h
    rw [call_type hl] at h
    exact construct_mix (by omega) (ih hu) hq h
  | makeMixTwo hl _ _ iha ihb =>
    intro v h
    simp only [userEval, eval, evalArgs, evalTys, orIll, pure_bind] at h
    obtain ⟨us, hus, h⟩ := bind_eq_clean.1 h
    obtain ⟨u, hu, hus⟩ := bind_eq_clean.1 hus
    obtain ⟨us', hw, hus⟩ := bind_eq_clean.1 hus
    obtain ⟨w, hw, hw'⟩ := bind_eq_clean.1 hw
    rw [pure_clean hus, pure_clean hw', call_type hl] at h
    obtain ⟨A, rfl⟩ := (iha hu).int
    obtain ⟨B, r, rfl, hr⟩ := (ihb hw).rat
    exact construct_mix_two (by omega) hr h
  | castMix hl _ hq ih =>
    intro v h
    simp only [userEval, eval, userEnv, hl, orIll, pure_bind] at h
    obtain ⟨u, hu, h⟩ := bind_eq_clean.1 h
    exact construct_mix (by omega) (ih hu) hq h
  | asFraction _ ih =>
    intro v h
    obtain ⟨u, hu, h⟩ := bind_eq_clean.1 h
    obtain ⟨W, F, m, rfl, -, hq⟩ := (ih hu).mix
    simp only [Val.type, TVal.scope] at h
    rw [mixed_asFractionT_ok W F o m (by omega)] at h
    obtain ⟨s, hs, rfl⟩ := map_clean_inv h
    exact ⟨rfl, asFractionT_exact hq hs⟩
  | whole _ ih =>
    intro v h
    obtain ⟨u, hu, h⟩ := bind_eq_clean.1 h
    obtain ⟨W, F, m, rfl, hi, hq⟩ := (ih hu).mix
    simp only [Val.type, TVal.scope] at h
    rw [mixed_whole_ok W F o m (by omega)] at h
    rw [pure_clean h]
    exact (mixed_parts hi hq).1
  | fractional _ ih =>
    intro v h
    obtain ⟨u, hu, h⟩ := bind_eq_clean.1 h
    obtain ⟨W, F, m, rfl, hi, hq⟩ := (ih hu).mix
    simp only [Val.type, TVal.scope] at h
    rw [mixed_fractional_ok W F o m (by omega)] at h
    rw [pure_clean h]
    exact ⟨rfl, (mixed_parts hi hq).2⟩

/-! ## Statements -/

theorem assignF_exact {L R : IntTy} {op : ArithOp} {l r s : Raw} {x y : ℚ} (hl : Denotes l x)
    (hr : Denotes r y) (h : Fraction.assignF L R o op l r ⇓ s) : op.Exact x y s := by
  unfold Fraction.assignF at h
  split at h
  · exact C39_mixed_arith_exact (a := .ff l r) ⟨hl, hr⟩ h
  · obtain ⟨r', hr', h⟩ := bind_eq_clean.1 h
    rw [(Raw.conv_clean.1 hr').2] at h
    exact C39_mixed_arith_exact (a := .ff l r) ⟨hl, hr⟩ h

theorem assignR_exact {L R : IntTy} {op : ArithOp} {l s : Raw} {x : ℚ} {y : ℤ}
    (hl : Denotes l x) (h : Fraction.assignR L R o op l y ⇓ s) : op.Exact x y s := by
  unfold Fraction.assignR at h
  split at h
  · exact C39_mixed_arith_exact (a := .fr l y) ⟨hl, rfl⟩ h
  · obtain ⟨r', hr', h⟩ := bind_eq_clean.1 h
    rw [(IntTy.conv_clean.1 hr').2] at h
    exact C39_mixed_arith_exact (a := .fr l y) ⟨hl, rfl⟩ h

theorem exact_means {T : IntTy} {op : BinOp} {aop : ArithOp} {x y : ℚ} {z : Meaning} {r : Raw}
    (hop : arithOf op = some aop) (he : aop.Exact x y r) (hz : ratOp op x y = some z) :
    Means o (.frac T o r) z := by
  cases op <;> simp only [arithOf, Option.some.injEq, reduceCtorEq] at hop <;> subst hop <;>
    simp only [ratOp] at hz
  · cases hz; exact ⟨rfl, he⟩
  · cases hz; exact ⟨rfl, he⟩
  · cases hz; exact ⟨rfl, he⟩
  · split at hz
    · cases hz
    · cases hz; exact ⟨rfl, he.1 ‹_›⟩
  · split at hz
    · cases hz
    · cases hz; exact ⟨rfl, he.2⟩

theorem assignF_text {op : BinOp} {aop : ArithOp} (hop : arithOf op = some aop) (L R : IntTy)
    (l r : Raw) (h : opsDepth o + 2 ≤ n) :
    changed (invoke library n .global none (updateName op) [] [.frac L o l, .frac R o r]) =
      Val.frac L o <$> Fraction.assignF L R o aop l r := by
  cases op <;> simp only [arithOf, Option.some.injEq, reduceCtorEq] at hop <;> subst hop
  · exact fraction_plus_assignF_changed L R o l r h
  · exact fraction_minus_assignF_changed L R o l r h
  · exact fraction_multiplies_assignF_changed L R o l r h
  · exact fraction_divides_assignF_changed L R o l r h
  · exact fraction_modulus_assignF_changed L R o l r h

theorem assignR_text {op : BinOp} {aop : ArithOp} (hop : arithOf op = some aop) (L R : IntTy)
    (l : Raw) (r : Int) (h : opsDepth o + 2 ≤ n) :
    changed (invoke library n .global none (updateName op) [] [.frac L o l, .int R r]) =
      Val.frac L o <$> Fraction.assignR L R o aop l r := by
  cases op <;> simp only [arithOf, Option.some.injEq, reduceCtorEq] at hop <;> subst hop
  · exact fraction_plus_assignR_changed L R o l r h
  · exact fraction_minus_assignR_changed L R o l r h
  · exact fraction_multiplies_assignR_changed L R o l r h
  · exact fraction_divides_assignR_changed L R o l r h
  · exact fraction_modulus_assignR_changed L R o l r h

theorem arithOf_of_ratOp {op : BinOp} {x y : ℚ} {z : Meaning} (h : ¬ (op = .eq ∨ op = .ne))
    (hz : ratOp op x y = some z) : ∃ aop, arithOf op = some aop := by
  cases op <;> simp_all [ratOp, arithOf]

/-- Assignment. -/
theorem assigned_means {w u v : Val} {old m new : Meaning} (hn : opsDepth o + 11 ≤ n) (hw : Means o w old)
    (hu : Means o u m) (ha : assigned old m = some new)
    (h : construct (invoke library n) w.type [u] ⇓ v) : Means o v new := by
  cases old with
  | bool b =>
    cases m <;> simp only [assigned, Option.some.injEq, reduceCtorEq] at ha
    subst ha
    rw [hw.bool, hu.bool] at h
    rw [pure_clean h]; rfl
  | int k =>
    cases m <;> simp only [assigned, Option.some.injEq, reduceCtorEq] at ha
    subst ha
    obtain ⟨A, rfl⟩ := hw.int
    obtain ⟨B, rfl⟩ := hu.int
    simp only [construct, Val.type] at h
    split at h
    · rw [pure_clean h]; rfl
    · obtain ⟨k, hk, rfl⟩ := map_clean_inv h
      exact (IntTy.conv_clean.1 hk).2
  | rat q =>
    obtain ⟨T, r, rfl, hr⟩ := hw.rat
    cases m <;> simp only [assigned, Option.some.injEq, reduceCtorEq] at ha <;> subst ha <;>
      exact construct_rat (by omega) hu rfl h
  | mix q =>
    obtain ⟨W, F, p, rfl, -, -⟩ := hw.mix
    cases m with
    | bool b => cases ha
    | int k => cases ha; exact construct_mix hn hu rfl h
    | rat k => cases ha; exact construct_mix hn hu rfl h
    | mix k =>
      cases ha
      obtain ⟨W', F', p', rfl, hi, hq⟩ := hu.mix
      have h' : construct (invoke library n) (.mixed W F o) [.mixed W' F' o p'] ⇓ v := h
      by_cases e : (Val.mixed W' F' o p').type = .mixed W F o
      · simp only [construct, e, if_true] at h'
        rw [pure_clean h']; exact ⟨rfl, hi, hq⟩
      · simp only [construct, e, if_false] at h'
        change value (invoke library n (mixedOf W F o) none N.«mixed_number» [] [.mixed W' F' o p']) ⇓ v at h'
        rw [mixed_of_mixed W F W' F' o p' (by omega)] at h'
        cases h'

/-- What a continuation gets. -/
def After {α : Type} (o : Ops) (tys : Types) (g : Val → Env → Res α) (k : Env → Res α) (a : α) :
    Ends Meaning Mem → Prop
  | .ret m => ∃ v e, Means o v m ∧ g v e ⇓ a
  | .next M => ∃ ents, MeansAll o ents M ∧ k (userEnv tys ents) ⇓ a

/-- Statements: either a value is returned, or the rest runs. -/
theorem exec_sound {α : Type} {g : Val → Env → Res α} (hn : policyDepth o ≤ n) {s : Stmt}
    {out : Ends Meaning Mem} (hs : DoesStmt o tys s M out) :
    ∀ {ents : List (Nat × Val)} {k : Env → Res α} {a : α}, MeansAll o ents M →
      exec library (invoke library n) none g s none (userEnv tys ents) k ⇓ a →
      After o tys g k a out := by
  have hn' := hn
  rw [policyDepth_eq] at hn'
  have := opsDepth_ge o
  induction hs with
  | nil => intro ents k a hM h; exact ⟨ents, hM, h⟩
  | ret he =>
    intro ents k a hM h
    obtain ⟨v, hv, h⟩ := bind_eq_clean.1 h
    simp only [returned, pure_bind] at h
    exact ⟨v, _, sem_sound hn hM he hv, h⟩
  | decl he _ ih =>
    intro ents k a hM h
    obtain ⟨v, hv, h⟩ := bind_eq_clean.1 h
    exact ih (ents := (_, v) :: ents) (List.Forall₂.cons ⟨rfl, sem_sound hn hM he hv⟩ hM) h
  | assign he hx hnew _ ih =>
    intro ents k a hM h
    obtain ⟨v, hv, h⟩ := bind_eq_clean.1 h
    obtain ⟨w, hw, hwm⟩ := hM.lookup hx
    simp only [userEnv, hw, orIll, pure_bind] at h
    obtain ⟨u, hu, h⟩ := bind_eq_clean.1 h
    exact ih (List.Forall₂.cons
      ⟨rfl, assigned_means (by omega) hwm (sem_sound hn hM he hv) hnew hu⟩ hM) h
  | @update x op e s M m old new out he hx hnew _ ih =>
    intro ents k a hM h
    obtain ⟨v, hv, h⟩ := bind_eq_clean.1 h
    have hvm := sem_sound hn hM he hv
    obtain ⟨w, hw, hwm⟩ := hM.lookup hx
    simp only [userEnv, hw, orIll, pure_bind] at h
    unfold updated at hnew
    split_ifs at hnew with hop
    cases old with
    | bool b => cases m <;> cases hnew
    | mix q => cases m <;> cases hnew
    | int i =>
      cases m <;> simp only [reduceCtorEq] at hnew
      obtain ⟨A, rfl⟩ := hwm.int
      obtain ⟨B, rfl⟩ := hvm.int
      obtain ⟨z, hz, hnew⟩ := Option.bind_eq_some_iff.1 hnew
      obtain ⟨c, hc, h⟩ := bind_eq_clean.1 h
      obtain ⟨u, hu, h⟩ := bind_eq_clean.1 h
      exact ih (List.Forall₂.cons
        ⟨rfl, assigned_means (by omega) hwm (int_op_means hz hc) hnew hu⟩ hM) h
    | rat q =>
      obtain ⟨T, r, rfl, hr⟩ := hwm.rat
      obtain ⟨c, hc, h⟩ := bind_eq_clean.1 h
      refine ih (List.Forall₂.cons ⟨rfl, ?_⟩ hM) h
      cases m with
      | bool b => cases hnew
      | mix q => cases hnew
      | int y =>
        obtain ⟨aop, ha⟩ := arithOf_of_ratOp hop hnew
        obtain ⟨B, rfl⟩ := hvm.int
        rw [assignR_text ha T B r y (by omega)] at hc
        obtain ⟨t, ht, rfl⟩ := map_clean_inv hc
        exact exact_means ha (assignR_exact hr ht) hnew
      | rat y =>
        obtain ⟨aop, ha⟩ := arithOf_of_ratOp hop hnew
        obtain ⟨B, b, rfl, hb⟩ := hvm.rat
        rw [assignF_text ha T B r b (by omega)] at hc
        obtain ⟨t, ht, rfl⟩ := map_clean_inv hc
        exact exact_means ha (assignF_exact hr hb ht) hnew
  | thenRet hc _ ih =>
    intro ents k a hM h
    obtain ⟨v, hv, h⟩ := bind_eq_clean.1 h
    rw [(sem_sound hn hM hc hv).bool] at h
    obtain ⟨u, e, hu, h⟩ := ih (k := fun env => exec library (invoke library n) none g _ none env k)
      hM h
    exact ⟨u, e, hu, h⟩
  | elseRet hc _ ih =>
    intro ents k a hM h
    obtain ⟨v, hv, h⟩ := bind_eq_clean.1 h
    rw [(sem_sound hn hM hc hv).bool] at h
    obtain ⟨u, e, hu, h⟩ := ih (k := fun env => exec library (invoke library n) none g _ none env k)
      hM h
    exact ⟨u, e, hu, h⟩
  | thenNext hc _ _ ih ihs =>
    intro ents k a hM h
    obtain ⟨v, hv, h⟩ := bind_eq_clean.1 h
    rw [(sem_sound hn hM hc hv).bool] at h
    obtain ⟨ents', hM', h⟩ := ih hM h
    exact ihs hM' h
  | elseNext hc _ _ ih ihs =>
    intro ents k a hM h
    obtain ⟨v, hv, h⟩ := bind_eq_clean.1 h
    rw [(sem_sound hn hM hc hv).bool] at h
    obtain ⟨ents', hM', h⟩ := ih hM h
    exact ihs hM' h

theorem stmt_sound (hn : policyDepth o ≤ n) {s : Stmt} {out : Ends Meaning Mem}
    {out' : Ends Val (List (Nat × Val))} (hs : DoesStmt o tys s M out) (hM : MeansAll o ents M)
    (h : userExec n tys ents s ⇓ out') : SameEnd o out' out := by
  have := exec_sound hn hs hM h
  cases out with
  | ret m =>
    obtain ⟨v, e, hv, h⟩ := this
    rw [pure_clean h]; exact hv
  | next M' =>
    obtain ⟨ents', hv, h⟩ := this
    rw [pure_clean h]; exact hv

/-- Code with loops. -/
theorem code_sound (hn : policyDepth o ≤ n) {c : Code} {out : Ends Meaning Mem}
    (hd : Does o tys c M out) :
    ∀ {ents : List (Nat × Val)} {out' : Ends Val (List (Nat × Val))}, MeansAll o ents M →
      Runs n tys c ents out' → SameEnd o out' out := by
  have ends : ∀ {c : Header.Expr} {ents : List (Nat × Val)} {M : Mem} {b b' : Bool},
      Sem o tys M c (.bool b) → MeansAll o ents M → userEval n tys ents c = .ok (.bool b') false →
      b' = b := fun hs hM h => sem_sound hn hM hs h
  induction hd with
  | stmt hs => intro ents out' hM h; cases h with | stmt h => exact stmt_sound hn hs hM h
  | seqRet _ ih =>
    intro ents out' hM h
    cases h with
    | seqRet h => exact ih hM h
    | seqNext h _ => exact (ih hM h).elim
  | seqNext _ _ iha ihb =>
    intro ents out' hM h
    cases h with
    | seqRet h => exact (iha hM h).elim
    | seqNext ha hb => exact ihb (iha hM ha) hb
  | done hc =>
    intro ents out' hM h
    cases h with
    | done h => exact hM
    | leave h _ => cases ends hc hM h
    | again h _ _ => cases ends hc hM h
  | leave hc _ ih =>
    intro ents out' hM h
    cases h with
    | done h => cases ends hc hM h
    | leave _ hb => exact ih hM hb
    | again _ hb _ => exact (ih hM hb).elim
  | again hc _ _ ih ihw =>
    intro ents out' hM h
    cases h with
    | done h => cases ends hc hM h
    | leave _ hb => exact (ih hM hb).elim
    | again _ hb hw => exact ihw (ih hM hb) hw

end Ieme.User
