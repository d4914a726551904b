import Verif.Lemmas.UserFit

/-!
# C153: exactly when loops finish

The other theorems of C153 are about runs that end without overflow or wrap-around.  Here is exactly when
the power loop, the sum loop and Euclid's algorithm end so, on every integer type, and with which parts.
-/

namespace Ieme

open Header User Res

set_option maxRecDepth 100000

variable {o : Ops} {tys : Types} {n : ℕ} {ents : List (ℕ × Val)}

/-- **C153** Under `safe` and `fast` the loop that multiplies a fraction k times by a base ends without
overflow or wrap-around if the parts of all intermediate products are representable.  Its result has
exactly the products of the parts. -/
theorem C153_power_finishes {product base k : ℕ} (hpb : product ≠ base) (hpk : product ≠ k)
    (hbk : base ≠ k) (ho : o = .safe ∨ o = .fast) (hn : policyDepth o ≤ n) {T : IntTy} {p b : Raw}
    {count : ℕ} (hp : ents.lookup product = some (.frac T o p))
    (hb : ents.lookup base = some (.frac T o b)) (hk : ents.lookup k = some (.int i32 count))
    (hc : (count : ℤ) ≤ i32.max) (hr : b.InRange T)
    (hfit : ∀ j ≤ count, T.InRange (p.num * b.num ^ j) ∧ T.InRange (p.den * b.den ^ j)) :
    ∃ ents', Runs n tys (powerLoop product base k) ents (.next ents') ∧
      ents'.lookup product = some (.frac T o ⟨p.num * b.num ^ count, p.den * b.den ^ count⟩) := by
  induction count generalizing ents p with
  | zero => exact ⟨ents, .done (by rw [loop_test hk]; simp), by simpa using hp⟩
  | succ c ih =>
    have h0 : p.InRange T := by simpa [Raw.InRange] using hfit 0 (by omega)
    have h1 : Raw.InRange T ⟨p.num * b.num, p.den * b.den⟩ := by
      simpa [Raw.InRange] using hfit 1 (by omega)
    have hs := (multiplies_iff ho h0 hr).2 ⟨h1, rfl⟩
    obtain ⟨ents', hrun, hres⟩ := ih (ents := (k, .int i32 c) ::
        (product, .frac T o ⟨p.num * b.num, p.den * b.den⟩) :: ents)
      (p := ⟨p.num * b.num, p.den * b.den⟩) (by rw [lookup_ne hpk, List.lookup_cons_self])
      (by rwa [lookup_ne hbk, lookup_ne hpb.symm]) List.lookup_cons_self
      (by push_cast at hc; omega) (fun j hj => by
        have := hfit (j + 1) (by omega)
        simpa only [pow_succ', mul_assoc] using this)
    refine ⟨ents', .again (by rw [loop_test hk]; simp; omega) (.stmt ?_) hrun, ?_⟩
    · rw [loop_round rfl hpk hn hk hp hb hc, hs]
      rfl
    · rw [hres]
      simp only [pow_succ', mul_assoc]

/-- **C153** And only if: a run that ends without overflow or wrap-around never left the range. -/
theorem C153_power_finishes_only {product base k : ℕ} (hpb : product ≠ base) (hpk : product ≠ k)
    (hbk : base ≠ k) (ho : o = .safe ∨ o = .fast) (hn : policyDepth o ≤ n) {T : IntTy} {p b : Raw}
    {count : ℕ} (hp : ents.lookup product = some (.frac T o p))
    (hb : ents.lookup base = some (.frac T o b)) (hk : ents.lookup k = some (.int i32 count))
    (hc : (count : ℤ) ≤ i32.max) (hr : b.InRange T) (hrp : p.InRange T)
    {out : Ends Val (List (ℕ × Val))} (h : Runs n tys (powerLoop product base k) ents out) :
    ∀ j ≤ count, T.InRange (p.num * b.num ^ j) ∧ T.InRange (p.den * b.den ^ j) := by
  induction count generalizing ents p with
  | zero =>
    intro j hj
    obtain rfl : j = 0 := by omega
    simpa [Raw.InRange] using hrp
  | succ c ih =>
    have htrue : userEval n tys ents (.bin .ne (.var 0 k) (.num 0)) = .ok (.bool true) false := by
      rw [loop_test hk]; simp; omega
    have hbody : ∀ {out'}, Runs n tys (.stmt (.update product .mul (.var 0 base)
        (.update k .sub (.num 1) .nil))) ents out' →
        Raw.InRange T ⟨p.num * b.num, p.den * b.den⟩ ∧ out' = .next ((k, .int i32 c) ::
          (product, .frac T o ⟨p.num * b.num, p.den * b.den⟩) :: ents) := by
      intro out' h
      cases h with
      | stmt h =>
        rw [loop_round rfl hpk hn hk hp hb hc] at h
        obtain ⟨s, hs, h⟩ := bind_eq_clean.1 h
        obtain ⟨h1, rfl⟩ := (multiplies_iff ho hrp hr).1 hs
        exact ⟨h1, pure_clean h⟩
    cases h with
    | done h => rw [htrue] at h; cases h
    | leave _ h => cases (hbody h).2
    | again _ h hnext =>
      obtain ⟨h1, h2⟩ := hbody h
      cases h2
      have := ih (p := ⟨p.num * b.num, p.den * b.den⟩) (by rw [lookup_ne hpk, List.lookup_cons_self])
        (by rwa [lookup_ne hbk, lookup_ne hpb.symm]) List.lookup_cons_self
        (by push_cast at hc; omega) h1 hnext
      intro j hj
      cases j with
      | zero => simpa [Raw.InRange] using hrp
      | succ j =>
        have := this j (by omega)
        simpa only [pow_succ', mul_assoc] using this

/-- Powers of 2/3 from 1: nineteen rounds fit `int`, twenty do not because 3 to the 20 is greater than
2 to the 31. -/
example : (∀ j ≤ 19, i32.InRange (1 * 2 ^ j) ∧ i32.InRange (1 * 3 ^ j)) ∧
    ¬ i32.InRange (1 * 3 ^ 20) ∧ Raw.InRange i32 ⟨2, 3⟩ := by decide +kernel

/-- Hence `product` is 2^19 over 3^19 after nineteen rounds, with the text of the headers, and there is no
run of twenty rounds without overflow. -/
example :
    (∃ ents', Runs 30 [] (powerLoop 1 2 3) [(1, .frac i32 .safe ⟨1, 1⟩), (2, .frac i32 .safe ⟨2, 3⟩),
        (3, .int i32 19)] (.next ents') ∧
      ents'.lookup 1 = some (.frac i32 .safe ⟨524288, 1162261467⟩)) ∧
    ¬ ∃ out, Runs 30 [] (powerLoop 1 2 3) [(1, .frac i32 .safe ⟨1, 1⟩), (2, .frac i32 .safe ⟨2, 3⟩),
        (3, .int i32 20)] out := by
  constructor
  · obtain ⟨ents', h, hl⟩ := C153_power_finishes (o := .safe) (tys := []) (n := 30) (product := 1)
      (base := 2) (k := 3) (T := i32) (p := ⟨1, 1⟩) (b := ⟨2, 3⟩) (count := 19)
      (ents := [(1, .frac i32 .safe ⟨1, 1⟩), (2, .frac i32 .safe ⟨2, 3⟩), (3, .int i32 19)])
      (by decide) (by decide) (by decide) (.inl rfl) (by decide) rfl rfl rfl (by decide)
      (by decide +kernel) (by decide +kernel)
    exact ⟨ents', h, by rw [hl]; norm_num⟩
  · rintro ⟨out, h⟩
    have := C153_power_finishes_only (o := .safe) (T := i32) (p := ⟨1, 1⟩) (b := ⟨2, 3⟩) (count := 20)
      (by decide) (by decide) (by decide) (.inl rfl) (by decide) rfl rfl rfl (by decide)
      (by decide +kernel) (by decide +kernel) h 20 le_rfl
    revert this
    decide +kernel

/-- **C153** Under `safe` the loop that adds a fraction k times to one with the same positive
denominator ends without overflow or wrap-around exactly if all intermediate numerators are
representable, and keeps the denominator. -/
theorem C153_sum_finishes {sum part k : ℕ} (hsp : sum ≠ part) (hsk : sum ≠ k) (hpk : part ≠ k)
    (hn : policyDepth .safe ≤ n) {T : IntTy} {x y d : ℤ} {count : ℕ}
    (hs : ents.lookup sum = some (.frac T .safe ⟨x, d⟩))
    (hp : ents.lookup part = some (.frac T .safe ⟨y, d⟩)) (hk : ents.lookup k = some (.int i32 count))
    (hc : (count : ℤ) ≤ i32.max) (hd : 0 < d) (hT : T.InRange d) (hx : T.InRange x) (hy : T.InRange y) :
    (∀ out, Runs n tys (sumLoop sum part k) ents out → ∃ ents', out = .next ents' ∧
      ents'.lookup sum = some (.frac T .safe ⟨x + count * y, d⟩)) ∧
    ((∃ out, Runs n tys (sumLoop sum part k) ents out) ↔ ∀ j : ℕ, j ≤ count → T.InRange (x + j * y)) := by
  induction count generalizing ents x with
  | zero =>
    have hfalse : userEval n tys ents (.bin .ne (.var 0 k) (.num 0)) = .ok (.bool false) false := by
      rw [loop_test hk]; simp
    refine ⟨fun out h => ?_, fun _ j hj => ?_, fun _ => ⟨_, .done hfalse⟩⟩
    · cases h with
      | done h => exact ⟨ents, rfl, by simpa using hs⟩
      | leave h _ => rw [hfalse] at h; cases h
      | again h _ _ => rw [hfalse] at h; cases h
    · obtain rfl : j = 0 := by omega
      simpa using hx
  | succ c ih =>
    have htrue : userEval n tys ents (.bin .ne (.var 0 k) (.num 0)) = .ok (.bool true) false := by
      rw [loop_test hk]; simp; omega
    have hbody : ∀ {out'}, Runs n tys (.stmt (.update sum .add (.var 0 part)
        (.update k .sub (.num 1) .nil))) ents out' ↔
        T.InRange (x + y) ∧ out' = .next ((k, .int i32 c) :: (sum, .frac T .safe ⟨x + y, d⟩) :: ents) := by
      intro out'
      have hround := loop_round (tys := tys) (op := .add) rfl hsk hn hk hs hp hc
      constructor
      · intro h
        cases h with
        | stmt h =>
          rw [hround] at h
          obtain ⟨s, hs, h⟩ := bind_eq_clean.1 h
          obtain ⟨h1, rfl⟩ := (plus_iff hd hx hy hT).1 hs
          exact ⟨h1, pure_clean h⟩
      · rintro ⟨h1, rfl⟩
        refine .stmt ?_
        rw [hround, (plus_iff hd hx hy hT).2 ⟨h1, rfl⟩]
        rfl
    have step : T.InRange (x + y) → _ := fun hxy => ih (ents := (k, .int i32 c) ::
        (sum, .frac T .safe ⟨x + y, d⟩) :: ents) (x := x + y)
      (by rw [lookup_ne hsk, List.lookup_cons_self]) (by rwa [lookup_ne hpk, lookup_ne hsp.symm])
      List.lookup_cons_self (by push_cast at hc; omega) hxy
    have shift : ∀ j : ℕ, x + y + j * y = x + (j + 1 : ℕ) * y := by
      intro j; push_cast; ring
    refine ⟨fun out h => ?_, fun ⟨out, h⟩ => ?_, fun hfit => ?_⟩
    · cases h with
      | done h => rw [htrue] at h; cases h
      | leave _ h => cases (hbody.1 h).2
      | again _ h hnext =>
        obtain ⟨h1, h2⟩ := hbody.1 h
        cases h2
        obtain ⟨ents', rfl, hl⟩ := (step h1).1 _ hnext
        exact ⟨ents', rfl, by rw [hl, shift]⟩
    · cases h with
      | done h => rw [htrue] at h; cases h
      | leave _ h => cases (hbody.1 h).2
      | again _ h hnext =>
        obtain ⟨h1, h2⟩ := hbody.1 h
        cases h2
        have := (step h1).2.1 ⟨_, hnext⟩
        intro j hj
        cases j with
        | zero => simpa using hx
        | succ j => rw [← shift]; exact this j (by omega)
    · have h1 : T.InRange (x + y) := by simpa using hfit 1 (by omega)
      obtain ⟨out, hout⟩ := (step h1).2.2 fun j hj => by
        rw [shift]; exact hfit (j + 1) (by omega)
      exact ⟨out, .again htrue (hbody.2 ⟨h1, rfl⟩) hout⟩

/-- 3/1000 and a million times 1/1000 over `int`: the loop ends, with 1000003 over 1000. -/
example : ∃ ents', Runs 30 [] (sumLoop 1 2 3) [(1, .frac i32 .safe ⟨3, 1000⟩),
      (2, .frac i32 .safe ⟨1, 1000⟩), (3, .int i32 1000000)] (.next ents') ∧
    ents'.lookup 1 = some (.frac i32 .safe ⟨1000003, 1000⟩) := by
  have h := C153_sum_finishes (tys := []) (n := 30) (sum := 1) (part := 2) (k := 3) (T := i32) (x := 3)
    (y := 1) (d := 1000) (count := 1000000) (ents := [(1, .frac i32 .safe ⟨3, 1000⟩),
      (2, .frac i32 .safe ⟨1, 1000⟩), (3, .int i32 (1000000 : ℕ))])
    (by decide) (by decide) (by decide) (by decide) rfl rfl rfl (by decide) (by decide) (by decide)
    (by decide) (by decide)
  obtain ⟨out, hout⟩ := h.2.2 fun j hj => by
    have h1 : i32.max = 2147483647 := by decide
    have h2 : i32.min = -2147483648 := by decide
    constructor <;> omega
  obtain ⟨ents', rfl, hl⟩ := h.1 _ hout
  exact ⟨ents', hout, by rw [hl]; norm_num⟩

/-- **C153** Under `fast` the same loop multiplies the denominators: if it ends without overflow or
wrap-around, the denominator is that of `sum` times the k-th power of that of `part`, and
representable. -/
theorem C153_sum_fast {sum part k : ℕ} (hsp : sum ≠ part) (hsk : sum ≠ k) (hpk : part ≠ k)
    (hn : policyDepth .fast ≤ n) {T : IntTy} {p b : Raw} {count : ℕ}
    (hs : ents.lookup sum = some (.frac T .fast p)) (hp : ents.lookup part = some (.frac T .fast b))
    (hk : ents.lookup k = some (.int i32 count)) (hc : (count : ℤ) ≤ i32.max) (hrp : p.InRange T)
    (hrb : b.InRange T) {out : Ends Val (List (ℕ × Val))}
    (h : Runs n tys (sumLoop sum part k) ents out) :
    ∃ ents' s, out = .next ents' ∧ ents'.lookup sum = some (.frac T .fast s) ∧
      s.den = p.den * b.den ^ count ∧ s.InRange T := by
  induction count generalizing ents p with
  | zero =>
    have hfalse : userEval n tys ents (.bin .ne (.var 0 k) (.num 0)) = .ok (.bool false) false := by
      rw [loop_test hk]; simp
    cases h with
    | done h => exact ⟨ents, p, rfl, hs, by simp, hrp⟩
    | leave h _ => rw [hfalse] at h; cases h
    | again h _ _ => rw [hfalse] at h; cases h
  | succ c ih =>
    have htrue : userEval n tys ents (.bin .ne (.var 0 k) (.num 0)) = .ok (.bool true) false := by
      rw [loop_test hk]; simp; omega
    have hbody : ∀ {out'}, Runs n tys (.stmt (.update sum .add (.var 0 part)
        (.update k .sub (.num 1) .nil))) ents out' → ∃ s : Raw, s.den = p.den * b.den ∧ s.InRange T ∧
          out' = .next ((k, .int i32 c) :: (sum, .frac T .fast s) :: ents) := by
      intro out' h
      cases h with
      | stmt h =>
        rw [loop_round (op := .add) rfl hsk hn hk hs hp hc] at h
        obtain ⟨s, hs, h⟩ := bind_eq_clean.1 h
        obtain ⟨h1, h2⟩ := plus_fast_den hrp hrb hs
        exact ⟨s, h1, h2, pure_clean h⟩
    cases h with
    | done h => rw [htrue] at h; cases h
    | leave _ h => obtain ⟨_, _, _, h⟩ := hbody h; cases h
    | again _ h hnext =>
      obtain ⟨s, h1, h2, h3⟩ := hbody h
      cases h3
      obtain ⟨ents', t, rfl, hl, hden, ht⟩ := ih (p := s)
        (by rw [lookup_ne hsk, List.lookup_cons_self]) (by rwa [lookup_ne hpk, lookup_ne hsp.symm])
        List.lookup_cons_self (by push_cast at hc; omega) h2 hnext
      exact ⟨ents', t, rfl, hl, by rw [hden, h1, pow_succ', mul_assoc], ht⟩

/-- So three times 1/1000 cannot be added to 3/1000 over `int`, because 1000 to the fourth is not
representable; twice 1/2 can be added to 1/2. -/
example :
    (¬ ∃ out, Runs 30 [] (sumLoop 1 2 3) [(1, .frac i32 .fast ⟨3, 1000⟩),
      (2, .frac i32 .fast ⟨1, 1000⟩), (3, .int i32 3)] out) ∧
    ∃ ents', Runs 30 [] (sumLoop 1 2 3) [(1, .frac i32 .fast ⟨1, 2⟩), (2, .frac i32 .fast ⟨1, 2⟩),
      (3, .int i32 2)] (.next ents') ∧ ents'.lookup 1 = some (.frac i32 .fast ⟨12, 8⟩) := by
  constructor
  · rintro ⟨out, h⟩
    obtain ⟨_, s, _, _, hden, hs⟩ := C153_sum_fast (T := i32) (p := ⟨3, 1000⟩) (b := ⟨1, 1000⟩)
      (count := 3) (by decide) (by decide) (by decide) (by decide) rfl rfl rfl (by decide) (by decide)
      (by decide) h
    have h2 := hs.2
    rw [hden] at h2
    revert h2
    decide
  · refine ⟨_, .again (ents' := [(3, .int i32 1), (1, .frac i32 .fast ⟨4, 4⟩),
        (1, .frac i32 .fast ⟨1, 2⟩), (2, .frac i32 .fast ⟨1, 2⟩), (3, .int i32 2)]) ?_ (.stmt ?_)
      (.again (ents' := [(3, .int i32 0), (1, .frac i32 .fast ⟨12, 8⟩), (3, .int i32 1),
        (1, .frac i32 .fast ⟨4, 4⟩), (1, .frac i32 .fast ⟨1, 2⟩), (2, .frac i32 .fast ⟨1, 2⟩),
        (3, .int i32 2)]) ?_ (.stmt ?_) (.done ?_)), ?_⟩
    all_goals decide +kernel

/-- **C153** Under `safe`, Euclid's algorithm on two fractions with the same positive denominator always
ends without overflow or wrap-around, if the absolute values of the numerators are representable;
`a` ends as the greatest common divisor of the numerators, or its negative, over that denominator. -/
theorem C153_euclid_finishes {a b rest : ℕ} (hab : a ≠ b) (har : a ≠ rest) (hbr : b ≠ rest)
    (htys : tys.lookup N.«is_zero» = none) (hn : policyDepth .safe ≤ n) {T : IntTy} {x y d : ℤ}
    (ha : ents.lookup a = some (.frac T .safe ⟨x, d⟩))
    (hb : ents.lookup b = some (.frac T .safe ⟨y, d⟩)) (hd : 0 < d) (hT : T.InRange d)
    (hx : T.InRange x) (hx' : |x| ≤ T.max) (hy : T.InRange y) (hy' : |y| ≤ T.max) :
    ∃ ents' g, Runs n tys (euclidLoop a b rest) ents (.next ents') ∧
      ents'.lookup a = some (.frac T .safe ⟨g, d⟩) ∧ |g| = Int.gcd x y := by
  obtain ⟨k, hk⟩ : ∃ k, y.natAbs ≤ k := ⟨_, le_rfl⟩
  have test : ∀ {ents : List (ℕ × Val)} {y : ℤ}, ents.lookup b = some (.frac T .safe ⟨y, d⟩) →
      userEval n tys ents (.un .not (.call 0 N.«is_zero» [] (.cons (.var 0 b) .nil))) =
        .ok (.bool (decide (y ≠ 0))) false := by
    intro ents y hb
    rw [euclid_test htys hn hb]
    by_cases h : y = 0 <;> simp [Raw.isZero, Raw.isDefined, hd.ne', h]
  have stop : ∀ {ents : List (ℕ × Val)} {x : ℤ}, ents.lookup a = some (.frac T .safe ⟨x, d⟩) →
      ents.lookup b = some (.frac T .safe ⟨0, d⟩) →
      ∃ ents' g, Runs n tys (euclidLoop a b rest) ents (.next ents') ∧
        ents'.lookup a = some (.frac T .safe ⟨g, d⟩) ∧ |g| = Int.gcd x 0 := by
    intro ents x ha hb
    exact ⟨ents, x, .done (by rw [test hb]; simp), ha, by simp⟩
  induction k generalizing ents x y with
  | zero =>
    obtain rfl : y = 0 := by omega
    exact stop ha hb
  | succ k ih =>
    by_cases hy0 : y = 0
    · subst hy0
      exact stop ha hb
    obtain ⟨-, h2, h3⟩ := tdiv_tmod_fit hx hx' hy
    have hlt : (x.tmod y).natAbs < y.natAbs := by
      rw [Int.natAbs_tmod]
      exact Nat.mod_lt _ (by omega)
    obtain ⟨ents', g, hrun, hl, hg⟩ := ih (ents := (b, .frac T .safe ⟨x.tmod y, d⟩) ::
        (a, .frac T .safe ⟨y, d⟩) :: (rest, .frac T .safe ⟨x.tmod y, d⟩) :: ents) (x := y)
      (y := x.tmod y) (by rw [lookup_ne hab, List.lookup_cons_self]) List.lookup_cons_self hy hy' h2 h3
      (by omega)
    refine ⟨ents', g, .again (by rw [test hb]; simp [hy0]) (.stmt ?_) hrun, hl, ?_⟩
    · rw [euclid_round hab har hbr hn ha hb, modulus_ok hd hx hx' hy hy0 hT]
      rfl
    · rw [hg]
      simp only [Int.gcd, Int.natAbs_tmod]
      rw [Nat.gcd_comm, ← Nat.gcd_rec, Nat.gcd_comm]

/-- 2147483646/7 and -1000000/7 over `int`: the algorithm ends, with 2/7 or -2/7. -/
example : ∃ ents' g, Runs 30 [] (euclidLoop 1 2 3) [(1, .frac i32 .safe ⟨2147483646, 7⟩),
      (2, .frac i32 .safe ⟨-1000000, 7⟩)] (.next ents') ∧
    ents'.lookup 1 = some (.frac i32 .safe ⟨g, 7⟩) ∧ |g| = 2 := by
  obtain ⟨ents', g, h, hl, hg⟩ := C153_euclid_finishes (tys := []) (n := 30) (a := 1) (b := 2) (rest := 3)
    (T := i32) (x := 2147483646) (y := -1000000) (d := 7)
    (ents := [(1, .frac i32 .safe ⟨2147483646, 7⟩), (2, .frac i32 .safe ⟨-1000000, 7⟩)])
    (by decide) (by decide) (by decide) rfl (by decide) rfl rfl (by decide) (by decide) (by decide)
    (by decide) (by decide) (by decide)
  exact ⟨ents', g, h, hl, by rw [hg]; decide +kernel⟩

/-- The absolute values must be representable: from the least `int` and -1 the first remainder
overflows. -/
example : runCode 30 [] 9 (euclidLoop 1 2 3) [(1, .frac i32 .safe ⟨-2147483648, 1⟩),
    (2, .frac i32 .safe ⟨-1, 1⟩)] = .fault .overflow := by decide +kernel

/-- **C153** Under every policy built on `safe`, the default among them, and on every signed type, a
fraction with positive denominator can be added to 0/1 k times in the code of a user, as long as k
times its numerator is representable. -/
theorem C153_sum_safe_based {sum part k : ℕ} (hsp : sum ≠ part) (hsk : sum ≠ k) (hpk : part ≠ k)
    (hn : policyDepth o ≤ n) (ho : o.BasedOnSafe) {T : IntTy} (hT : T.signed = true) {b : Raw} {count : ℕ}
    (hs : ents.lookup sum = some (.frac T o ⟨0, 1⟩)) (hp : ents.lookup part = some (.frac T o b))
    (hk : ents.lookup k = some (.int i32 count)) (hc : (count : ℤ) ≤ i32.max) (hb : b.InRange T)
    (hd : 0 < b.den) (hfit : count * |b.num| ≤ T.max) :
    ∃ ents' s, Runs n tys (sumLoop sum part k) ents (.next ents') ∧
      ents'.lookup sum = some (.frac T o s) ∧ s.den ∣ b.den ∧
      Denotes s (count * ((b.num : ℚ) / b.den)) := by
  obtain ⟨s, h, h1, h2⟩ := C107_safe_repeated ho hT hb hd hfit
  obtain ⟨ents', hrun, hl⟩ := (update_loop_iff (op := .add) (tys := tys) rfl hsp hsk hpk hn hs hp hk hc).2 h
  exact ⟨ents', s, hrun, hl, h1, h2⟩

/-- A tenth can be added two thousand million times to zero over `int` under the default policy. -/
example : ∃ ents' s, Runs 40 [] (sumLoop 1 2 3) [(1, .frac i32 .defaults ⟨0, 1⟩),
      (2, .frac i32 .defaults ⟨1, 10⟩), (3, .int i32 2000000000)] (.next ents') ∧
    ents'.lookup 1 = some (.frac i32 .defaults s) ∧ Denotes s 200000000 := by
  obtain ⟨ents', s, h, hl, -, hd⟩ := C153_sum_safe_based (o := .defaults) (tys := []) (n := 40) (sum := 1)
    (part := 2) (k := 3) (T := i32) (b := ⟨1, 10⟩) (count := 2000000000)
    (ents := [(1, .frac i32 .defaults ⟨0, 1⟩), (2, .frac i32 .defaults ⟨1, 10⟩),
      (3, .int i32 (2000000000 : ℕ))]) (by decide) (by decide) (by decide) (by decide) trivial rfl rfl rfl
    rfl (by decide) (by decide) (by decide) (by decide)
  exact ⟨ents', s, h, hl, by norm_num at hd; exact hd⟩

/-! ## Expressions -/

/-- **C153** In the code of a user, with the text of the headers: if the static bounds of an expression
over fractions and integers of one type are representable, the expression has a value, and either the
type is signed or no operator can go below zero, then it evaluates without overflow or wrap-around,
under every policy, to a fraction of that value. -/
theorem C153_static_bound (hn : policyDepth o ≤ n) {T : IntTy} {a : Header.Expr} {e : Ieme.Expr} {q : ℚ}
    (h : Reads T o ents a e) (hv : e.value = some q) (hb : e.Bounded T.max)
    (hr : T.signed = true ∨ e.NoMinus ∧ e.LeavesInRange T) :
    ∃ r, userEval n tys ents a ⇓ .frac T o r ∧ Denotes r q := by
  obtain ⟨r, h1, h2, -⟩ := C106_bounded_finishes o hv hb hr
  exact ⟨r, by rw [reads_eval hn h, h1]; rfl, h2⟩

/-- **C153** It is enough that 2 to the number of operators times B to the number of operands is
representable, where no part of an operand exceeds B. -/
theorem C153_operand_count (hn : policyDepth o ≤ n) {T : IntTy} {a : Header.Expr} {e : Ieme.Expr} {q : ℚ}
    {B : ℕ} (h : Reads T o ents a e) (hv : e.value = some q) (hB : e.LeavesLe B)
    (hm : ((2 ^ (e.leaves - 1) * B ^ e.leaves : ℕ) : ℤ) ≤ T.max)
    (hr : T.signed = true ∨ e.NoMinus ∧ e.LeavesInRange T) :
    ∃ r, userEval n tys ents a ⇓ .frac T o r ∧ Denotes r q := by
  obtain ⟨r, h1, h2, -⟩ := C106_operand_count o hv hB hm hr
  exact ⟨r, by rw [reads_eval hn h, h1]; rfl, h2⟩

/-- `-x * y + k` with `x` = 3/4, `y` = 5 over -6 and `k` = 2 is 21/8. -/
example : Reads i32 .defaults [(1, .frac i32 .defaults ⟨3, 4⟩), (2, .frac i32 .defaults ⟨5, -6⟩),
      (3, .int i32 2)]
      (.bin .add (.bin .mul (.un .neg (.var 0 1)) (.var 0 2)) (.var 0 3))
      (.fr .plus (.ff .multiplies (.neg (.lit ⟨3, 4⟩)) (.lit ⟨5, -6⟩)) 2) ∧
    (Expr.fr .plus (.ff .multiplies (.neg (.lit ⟨3, 4⟩)) (.lit ⟨5, -6⟩)) 2).value = some (21 / 8) ∧
    (Expr.fr .plus (.ff .multiplies (.neg (.lit ⟨3, 4⟩)) (.lit ⟨5, -6⟩)) 2).Bounded i32.max ∧
    (Expr.fr .plus (.ff .multiplies (.neg (.lit ⟨3, 4⟩)) (.lit ⟨5, -6⟩)) 2).LeavesLe 6 ∧
    ((2 ^ 2 * 6 ^ 3 : ℕ) : ℤ) ≤ i32.max ∧ policyDepth .defaults ≤ 40 := by
  refine ⟨.fr (op := .plus) (.ff (op := .multiplies) (.neg (.var rfl)) (.var rfl)) rfl,
    by decide +kernel, by decide +kernel, ?_, by decide, by decide⟩
  simp [Expr.LeavesLe, Raw.AbsLe]

end Ieme
