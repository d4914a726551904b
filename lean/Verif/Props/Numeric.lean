import Verif.Lemmas.Numeric
import Verif.Props.Bounds

/-!
# The numeric algorithms of the standard library on fractions: property C133
-/

namespace Ieme

open Res IntTy Std

variable {T : IntTy} {o : Ops}

/-- **C133** `std::accumulate` with `+` over defined fractions that finishes cleanly leaves exactly
the initial value plus the sum of the elements, under every policy. -/
theorem C133_accumulate {init r : Raw} {xs : List Raw} (hi : init.den ≠ 0) (hx : AllDefined xs)
    (h : accumulate T o .plus init xs ⇓ r) : Denotes r (init.quot + sumOf xs) := by
  have e := Grouping.eval_leftmost (T := T) (o := o) .plus (.one init) xs
  simp only [Grouping.eval, pure_bind] at e
  rw [← e] at h
  have el : (Grouping.leftmost (.one init) xs).elements = init :: xs := by
    simp [Grouping.leftmost_elements, Grouping.elements]
  have := Grouping.eval_plus (by rw [el]; exact List.forall_mem_cons.2 ⟨hi, hx⟩) h
  rw [el, sumOf_cons] at this
  exact ⟨this.1, this.2⟩

/-- `0 + 1/2 + 1/3 + -5/6` with the default policy. -/
example : accumulate i32 .defaults .plus ⟨0, 1⟩ [⟨1, 2⟩, ⟨1, 3⟩, ⟨5, -6⟩] ⇓ ⟨0, 1⟩ ∧
    AllDefined [⟨1, 2⟩, ⟨1, 3⟩, ⟨5, -6⟩] := by
  refine ⟨by decide +kernel, ?_⟩
  unfold AllDefined; decide

/-- **C133** With `*` instead: the initial value times the product. -/
theorem C133_accumulate_product {init r : Raw} {xs : List Raw} (hi : init.den ≠ 0)
    (hx : AllDefined xs) (h : accumulate T o .multiplies init xs ⇓ r) :
    Denotes r (init.quot * prodOf xs) := by
  have e := Grouping.eval_leftmost (T := T) (o := o) .multiplies (.one init) xs
  simp only [Grouping.eval, pure_bind] at e
  rw [← e] at h
  have el : (Grouping.leftmost (.one init) xs).elements = init :: xs := by
    simp [Grouping.leftmost_elements, Grouping.elements]
  have := Grouping.eval_multiplies (by rw [el]; exact List.forall_mem_cons.2 ⟨hi, hx⟩) h
  rw [el] at this
  exact ⟨this.1, by simpa [prodOf, Raw.quot] using this.2⟩

/-- `1 * 2/3 * -3/4` under `fast`. -/
example : accumulate i32 .fast .multiplies ⟨1, 1⟩ [⟨2, 3⟩, ⟨-3, 4⟩] ⇓ ⟨-6, 12⟩ ∧
    prodOf [⟨2, 3⟩, ⟨-3, 4⟩] = -1 / 2 := by
  constructor
  · decide
  · norm_num [prodOf, Raw.quot]

/-- **C133** `std::reduce` may bracket and permute the initial value and the elements as it likes:
whatever it does, a sum or product of defined fractions that finishes cleanly has the exact value. -/
theorem C133_reduce {init r : Raw} {xs : List Raw} {g : Grouping} (hg : g.Of init xs)
    (hi : init.den ≠ 0) (hx : AllDefined xs) :
    (g.eval T o .plus ⇓ r → Denotes r (init.quot + sumOf xs)) ∧
    (g.eval T o .multiplies ⇓ r → Denotes r (init.quot * prodOf xs)) := by
  have hd : AllDefined g.elements := fun x hx' => by
    rcases List.mem_cons.1 (hg.mem_iff.1 hx') with rfl | h
    · exact hi
    · exact hx x h
  refine ⟨fun h => ?_, fun h => ?_⟩
  · have := Grouping.eval_plus hd h
    refine ⟨this.1, this.2.trans ?_⟩
    rw [sumOf, (hg.map Raw.quot).sum_eq]; simp [sumOf]
  · have := Grouping.eval_multiplies hd h
    refine ⟨this.1, this.2.trans ?_⟩
    rw [prodOf, (hg.map Raw.quot).prod_eq]; simp [prodOf]

/-- `(1/3 + 1/6) + (0 + 1/2)`, a permuted bracketing of `0` and `1/2, 1/3, 1/6`. -/
example : (Grouping.both (.both (.one ⟨1, 3⟩) (.one ⟨1, 6⟩)) (.both (.one ⟨0, 1⟩) (.one ⟨1, 2⟩))).Of
      ⟨0, 1⟩ [⟨1, 2⟩, ⟨1, 3⟩, ⟨1, 6⟩] ∧
    (Grouping.both (.both (.one ⟨1, 3⟩) (.one ⟨1, 6⟩))
      (.both (.one ⟨0, 1⟩) (.one ⟨1, 2⟩))).eval i32 .safe .plus ⇓ ⟨6, 6⟩ := by
  refine ⟨?_, by decide⟩
  unfold Grouping.Of; decide

/-- **C133** `std::accumulate` is one of the bracketings. -/
theorem C133_accumulate_is_reduce (T : IntTy) (o : Ops) (op : ArithOp) (init : Raw)
    (xs : List Raw) : ∃ g : Grouping, g.elements = init :: xs ∧
      accumulate T o op init xs = g.eval T o op := by
  refine ⟨Grouping.leftmost (.one init) xs, by simp [Grouping.leftmost_elements,
    Grouping.elements], ?_⟩
  rw [Grouping.eval_leftmost]; simp only [Grouping.eval, pure_bind]

/-- **C133** With a policy that normalises results, and with plain `safe` or plain `fast`,
`std::reduce` of representable operands gives the same object (same numerator and denominator)
whichever bracketing and order it uses, provided both runs finish cleanly; in particular it agrees
with `std::accumulate`. -/
theorem C133_reduce_identical {init r r' : Raw} {xs : List Raw} {g g' : Grouping}
    (ho : o.NormalizesOutput ∨ o = .safe ∨ o = .fast) (hg : g.Of init xs) (hg' : g'.Of init xs)
    (hi : init.den ≠ 0) (hx : AllDefined xs) (hr : ∀ x ∈ init :: xs, x.InRange T)
    {op : ArithOp} (hop : op = .plus ∨ op = .multiplies)
    (h : g.eval T o op ⇓ r) (h' : g'.eval T o op ⇓ r') : r = r' := by
  have hir : ∀ x ∈ g.elements, x.InRange T := fun x hx' => hr x (hg.mem_iff.1 hx')
  have hir' : ∀ x ∈ g'.elements, x.InRange T := fun x hx' => hr x (hg'.mem_iff.1 hx')
  have hp : g.elements.Perm g'.elements := hg.trans hg'.symm
  have hs : ∃ q, Denotes r q ∧ Denotes r' q := by
    rcases hop with rfl | rfl
    · exact ⟨_, (C133_reduce hg hi hx).1 h, (C133_reduce hg' hi hx).1 h'⟩
    · exact ⟨_, (C133_reduce hg hi hx).2 h, (C133_reduce hg' hi hx).2 h'⟩
  by_cases hl : g.elements.length = 1
  · exact Grouping.eval_one hp hl h h'
  have hl' : g'.elements.length ≠ 1 := by rwa [← hp.length_eq]
  obtain ⟨q, h1, h2⟩ := hs
  rcases ho with hn | ho
  · exact Canonical.unique (Grouping.eval_canonical hn hir hl h h1.1)
      (Grouping.eval_canonical hn hir' hl' h' h2.1) ⟨q, h1, h2⟩
  refine h1.eq_of_den h2 ?_
  by_cases hc : o = .fast ∧ (op = .plus ∨ op = .multiplies) ∨ o = .safe ∧ op = .multiplies
  · rw [Grouping.eval_den_prod hc h, Grouping.eval_den_prod hc h']
    exact (hp.map _).prod_eq
  · obtain ⟨rfl, rfl⟩ : o = .safe ∧ op = .plus := by
      rcases ho with rfl | rfl <;> rcases hop with rfl | rfl <;> simp_all
    obtain ⟨d1, p1⟩ := Grouping.eval_den_lcm h
    obtain ⟨d2, p2⟩ := Grouping.eval_den_lcm h'
    refine Int.dvd_antisymm (p1 hl) (p2 hl') ?_ ?_
    · exact (d1 _).2 fun x hx => (d2 _).1 dvd_rfl x (hp.mem_iff.1 hx)
    · exact (d2 _).2 fun x hx => (d1 _).1 dvd_rfl x (hp.mem_iff.2 hx)

/-- Left to right and right to left of `1/2 + 1/3 + -5/7` with the default policy. -/
example : (Grouping.both (.both (.one ⟨1, 2⟩) (.one ⟨1, 3⟩)) (.one ⟨-5, 7⟩)).eval i32 .defaults .plus
      ⇓ ⟨5, 42⟩ ∧
    (Grouping.both (.one ⟨-5, 7⟩) (.both (.one ⟨1, 3⟩) (.one ⟨1, 2⟩))).eval i32 .defaults .plus
      ⇓ ⟨5, 42⟩ ∧ Ops.defaults.NormalizesOutput ∧
    (Grouping.both (.one ⟨-5, 7⟩) (.both (.one ⟨1, 3⟩) (.one ⟨1, 2⟩))).Of
      ⟨1, 2⟩ [⟨1, 3⟩, ⟨-5, 7⟩] := by
  refine ⟨by decide +kernel, by decide +kernel, trivial, ?_⟩
  unfold Grouping.Of; decide

/-- **C133** Under a policy that ends in `safe`, every bracketing and every order of a sum finishes
without overflow as soon as all denominators divide a representable `D` and the magnitudes, in units
of `1/D`, add up to a representable number; the result's denominator divides `D`. -/
theorem C133_reduce_finishes {init : Raw} {xs : List Raw} {g : Grouping} {D : ℤ}
    (ho : o.BasedOnSafe) (hs : T.signed = true) (hD : 0 < D) (hDm : D ≤ T.max)
    (hg : g.Of init xs) (hd : ∀ x ∈ init :: xs, x.den ≠ 0 ∧ x.den ∣ D)
    (hw : weightOver D (init :: xs) ≤ T.max) :
    ∃ r, g.eval T o .plus ⇓ r ∧ r.den ∣ D ∧ Denotes r (init.quot + sumOf xs) := by
  have e : weightOver D g.elements = weightOver D (init :: xs) := (hg.map _).sum_eq
  obtain ⟨r, hr, on, -⟩ := Grouping.eval_on (g := g) ho hs hD hDm
    (fun x hx => hd x (hg.mem_iff.1 hx)) (e.trans_le hw)
  exact ⟨r, hr, on.dvd, (C133_reduce hg (hd init (by simp)).1
    (fun x hx => (hd x (by simp [hx])).1)).1 hr⟩

/-- Eighths whose numerators have magnitudes adding up to the largest `int`. -/
example : weightOver 8 [⟨1, 2⟩, ⟨-2147483640, 8⟩, ⟨3, 8⟩] ≤ i32.max ∧
    (∀ x ∈ [(⟨1, 2⟩ : Raw), ⟨-2147483640, 8⟩, ⟨3, 8⟩], x.den ≠ 0 ∧ x.den ∣ 8) ∧
    (Grouping.both (.one ⟨3, 8⟩) (.both (.one ⟨-2147483640, 8⟩) (.one ⟨1, 2⟩))).eval i32 .safe .plus
      ⇓ ⟨-2147483633, 8⟩ := by
  refine ⟨by decide, by decide, by decide +kernel⟩

/-- **C133** Under every policy: `m` operands (the initial value included) whose parts have
magnitude at most `B` are added or multiplied without overflow in every bracketing and order, when
`2 ^ (m - 1) * B ^ m` is representable. -/
theorem C133_reduce_bounded (o : Ops) {init : Raw} {xs : List Raw} {g : Grouping} {B : ℕ}
    (hg : g.Of init xs) (hi : init.den ≠ 0) (hx : AllDefined xs)
    (hB : ∀ x ∈ init :: xs, x.AbsLe B) (hr : ∀ x ∈ init :: xs, x.InRange T)
    (hm : ((2 ^ xs.length * B ^ (xs.length + 1) : ℕ) : ℤ) ≤ T.max) :
    (∃ r, g.eval T o .plus ⇓ r ∧ Denotes r (init.quot + sumOf xs)) ∧
    ∃ r, g.eval T o .multiplies ⇓ r ∧ Denotes r (init.quot * prodOf xs) := by
  have hd : AllDefined g.elements := fun x hx' => by
    rcases List.mem_cons.1 (hg.mem_iff.1 hx') with rfl | h
    · exact hi
    · exact hx x h
  have hl : g.elements.length = xs.length + 1 := hg.length_eq
  have hir : ∀ x ∈ g.elements, x.InRange T := fun x hx' => hr x (hg.mem_iff.1 hx')
  have key : ∀ op, op ≠ .minus → ∀ q, (g.toExpr op).value = some q →
      ∃ r, g.eval T o op ⇓ r := by
    intro op hop q hq
    obtain ⟨r, h, -⟩ := C106_operand_count (T := T) o hq
      (Grouping.leavesLe_toExpr op fun x hx' => hB x (hg.mem_iff.1 hx'))
      (by rw [Grouping.leaves_toExpr, hl]; simpa using hm)
      (.inr ⟨Grouping.noMinus_toExpr hop g, Grouping.leavesInRange_toExpr op hir⟩)
    exact ⟨r, by rwa [Grouping.eval_toExpr] at h⟩
  obtain ⟨r, h⟩ := key .plus (by decide) _ (Grouping.value_plus hd)
  obtain ⟨s, h'⟩ := key .multiplies (by decide) _ (Grouping.value_multiplies hd)
  exact ⟨⟨r, h, (C133_reduce hg hi hx).1 h⟩, ⟨s, h', (C133_reduce hg hi hx).2 h'⟩⟩

/-- Four `int` fractions with parts at most 128: `8 * 128 ^ 4 = 2 ^ 31` is one too many, 127 fits. -/
example : ((2 ^ 3 * 127 ^ 4 : ℕ) : ℤ) ≤ i32.max ∧ ¬ ((2 ^ 3 * 128 ^ 4 : ℕ) : ℤ) ≤ i32.max ∧
    (∀ x ∈ [(⟨1, 127⟩ : Raw), ⟨127, 126⟩, ⟨127, 125⟩, ⟨-127, 124⟩], x.AbsLe 127) := by
  refine ⟨by decide, by decide, ?_⟩
  unfold Raw.AbsLe; decide

/-- **C133** `std::inner_product` of two ranges of defined fractions that finishes cleanly is exactly
the initial value plus the sum of the products. -/
theorem C133_inner_product {init r : Raw} {xs ys : List Raw} (hi : init.den ≠ 0)
    (hx : AllDefined xs) (hy : AllDefined ys) (h : innerProduct T o init xs ys ⇓ r) :
    Denotes r (init.quot + dotOf xs ys) := innerProduct_value hi hx hy h

/-- `1/2 * 2/3 + 3/4 * 4/5 + 1`. -/
example : innerProduct i32 .defaults ⟨1, 1⟩ [⟨1, 2⟩, ⟨3, 4⟩] [⟨2, 3⟩, ⟨4, 5⟩] ⇓ ⟨29, 15⟩ ∧
    1 + dotOf [⟨1, 2⟩, ⟨3, 4⟩] [⟨2, 3⟩, ⟨4, 5⟩] = 29 / 15 := by
  constructor
  · decide +kernel
  · norm_num [dotOf, Raw.quot]

/-- **C133** `std::partial_sum` writes as many elements as it reads, and the `k`-th is exactly the sum
of the first `k + 1`. -/
theorem C133_partial_sum {xs rs : List Raw} (hx : AllDefined xs) (h : partialSum T o xs ⇓ rs) :
    rs.length = xs.length ∧
      ∀ k r, rs[k]? = some r → Denotes r (sumOf (xs.take (k + 1))) := by
  obtain ⟨hl, hd, hv⟩ := partialSum_value hx h
  exact ⟨hl, fun k r hr => ⟨hd r (List.mem_of_getElem? hr), hv k r hr⟩⟩

example : partialSum i32 .safe [⟨1, 2⟩, ⟨1, 3⟩, ⟨1, 6⟩] ⇓ [⟨1, 2⟩, ⟨5, 6⟩, ⟨6, 6⟩] := by
  decide +kernel

/-- **C133** `std::adjacent_difference` writes as many elements as it reads, copies the first, and
each later one is exactly the element minus the one before it. -/
theorem C133_adjacent_difference {xs rs : List Raw} (hx : AllDefined xs)
    (h : adjacentDifference T o xs ⇓ rs) :
    rs.length = xs.length ∧ rs[0]? = xs[0]? ∧
      ∀ (k : ℕ) (x y r : Raw), xs[k]? = some x → xs[k + 1]? = some y → rs[k + 1]? = some r →
        Denotes r (y.quot - x.quot) := by
  obtain ⟨hl, hd, h0, hv⟩ := adjacentDifference_value hx h
  exact ⟨hl, h0, fun k x y r h1 h2 h3 => ⟨hd r (List.mem_of_getElem? h3), hv k x y r h1 h2 h3⟩⟩

example : adjacentDifference i32 .defaults [⟨1, 2⟩, ⟨5, 6⟩, ⟨1, 1⟩] ⇓
    [⟨1, 2⟩, ⟨1, 3⟩, ⟨1, 6⟩] := by
  decide +kernel

/-- **C133** The two undo each other: differences of partial sums and partial sums of differences
have the values of the original elements. -/
theorem C133_inverse {xs ys zs : List Raw} (hx : AllDefined xs) :
    (partialSum T o xs ⇓ ys → adjacentDifference T o ys ⇓ zs →
      zs.map Raw.quot = xs.map Raw.quot) ∧
    (adjacentDifference T o xs ⇓ ys → partialSum T o ys ⇓ zs →
      zs.map Raw.quot = xs.map Raw.quot) :=
  ⟨difference_of_sums hx, sums_of_difference hx⟩

/-- **C133** With a policy that normalises results and reduced representable elements they restore
the very same numerators and denominators. -/
theorem C133_inverse_identical {xs ys zs : List Raw} (hn : o.NormalizesOutput)
    (hc : ∀ x ∈ xs, Canonical x ∧ x.InRange T) :
    (partialSum T o xs ⇓ ys → adjacentDifference T o ys ⇓ zs → zs = xs) ∧
    (adjacentDifference T o xs ⇓ ys → partialSum T o ys ⇓ zs → zs = xs) := by
  have hx : AllDefined xs := fun x h => (hc x h).1.1.ne'
  refine ⟨fun h1 h2 => ?_, fun h1 h2 => ?_⟩
  · exact eq_of_map_quot (fun z hz => (adjacentDifference_canonical hn
      (partialSum_canonical hn hc h1) h2 z hz).1) (fun x h => (hc x h).1) (difference_of_sums hx h1 h2)
  · exact eq_of_map_quot (fun z hz => (partialSum_canonical hn
      (adjacentDifference_canonical hn hc h1) h2 z hz).1) (fun x h => (hc x h).1)
      (sums_of_difference hx h1 h2)

example : partialSum i32 .defaults [⟨1, 2⟩, ⟨-1, 3⟩, ⟨1, 6⟩] ⇓ [⟨1, 2⟩, ⟨1, 6⟩, ⟨1, 3⟩] ∧
    adjacentDifference i32 .defaults [⟨1, 2⟩, ⟨1, 6⟩, ⟨1, 3⟩] ⇓ [⟨1, 2⟩, ⟨-1, 3⟩, ⟨1, 6⟩] ∧
    (∀ x ∈ [(⟨1, 2⟩ : Raw), ⟨-1, 3⟩, ⟨1, 6⟩], Canonical x ∧ x.InRange i32) := by
  refine ⟨by decide +kernel, by decide +kernel, ?_⟩
  unfold Canonical; decide

/-- **C133** What the code does not give.  With `safe`, `fast` and the defaults one order of the same
three `int` fractions overflows and another finishes with a representable result, and under a policy
that reduces only its inputs two orders that both finish give different numerators and
denominators. -/
theorem C133_order_matters :
    (∀ o ∈ [Ops.safe, .fast, .defaults],
      (Grouping.both (.both (.one ⟨2147483647, 1⟩) (.one ⟨1, 1⟩)) (.one ⟨-1, 1⟩)).eval i32 o .plus =
        .fault .overflow ∧
      (Grouping.both (.one ⟨2147483647, 1⟩) (.both (.one ⟨1, 1⟩) (.one ⟨-1, 1⟩))).eval i32 o .plus ⇓
        ⟨2147483647, 1⟩) ∧
    (Grouping.both (.both (.one ⟨1, 2⟩) (.one ⟨1, 2⟩)) (.one ⟨1, 3⟩)).eval i32
      (.reducedInput .safe .normalizeSigns) .plus ⇓ ⟨4, 3⟩ ∧
    (Grouping.both (.one ⟨1, 2⟩) (.both (.one ⟨1, 2⟩) (.one ⟨1, 3⟩))).eval i32
      (.reducedInput .safe .normalizeSigns) .plus ⇓ ⟨8, 6⟩ := by
  decide +kernel

end Ieme
