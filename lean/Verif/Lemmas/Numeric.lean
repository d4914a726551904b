import Verif.Spec.Numeric
import Verif.Lemmas.CommonDen
import Verif.Lemmas.Fraction
import Verif.Lemmas.Exact
import Verif.Lemmas.Closure
import Verif.Lemmas.Reduce
import Verif.Lemmas.Containers
import Mathlib.Algebra.BigOperators.Group.List.Lemmas
import Mathlib.Tactic.Ring
import Mathlib.Tactic.Linarith

/-!
# Lemmas about the numeric algorithms
-/

namespace Ieme

open Res IntTy

variable {T : IntTy} {o : Ops}

theorem denotes_quot {f : Raw} (h : f.den ≠ 0) : Denotes f f.quot := ⟨h, rfl⟩

theorem Denotes.eq_of_den {f g : Raw} {q : ℚ} (hf : Denotes f q) (hg : Denotes g q)
    (h : f.den = g.den) : f = g := by
  have h0 : (g.den : ℚ) ≠ 0 := by exact_mod_cast hg.1
  have e := hf.2.trans hg.2.symm
  rw [h, div_left_inj' h0] at e
  obtain ⟨fn, fd⟩ := f
  obtain ⟨gn, gd⟩ := g
  have : fn = gn := by exact_mod_cast e
  simp_all

theorem Denotes.quot_eq {f : Raw} {q : ℚ} (h : Denotes f q) : f.quot = q := h.2

namespace Std

theorem apply_eq (op : ArithOp) (x y : Raw) : apply T o op x y = o.arith T op (.ff x y) :=
  Fraction.arith_self ..

theorem apply_plus {x y r : Raw} (hx : x.den ≠ 0) (hy : y.den ≠ 0)
    (h : apply T o .plus x y ⇓ r) : r.den ≠ 0 ∧ r.quot = x.quot + y.quot := by
  rw [apply_eq] at h
  have := Ops.arith_exact (a := .ff x y) ⟨denotes_quot hx, denotes_quot hy⟩ h
  exact ⟨this.1, this.2⟩

theorem apply_minus {x y r : Raw} (hx : x.den ≠ 0) (hy : y.den ≠ 0)
    (h : apply T o .minus x y ⇓ r) : r.den ≠ 0 ∧ r.quot = x.quot - y.quot := by
  rw [apply_eq] at h
  have := Ops.arith_exact (a := .ff x y) ⟨denotes_quot hx, denotes_quot hy⟩ h
  exact ⟨this.1, this.2⟩

theorem apply_multiplies {x y r : Raw} (hx : x.den ≠ 0) (hy : y.den ≠ 0)
    (h : apply T o .multiplies x y ⇓ r) : r.den ≠ 0 ∧ r.quot = x.quot * y.quot := by
  rw [apply_eq] at h
  have := Ops.arith_exact (a := .ff x y) ⟨denotes_quot hx, denotes_quot hy⟩ h
  exact ⟨this.1, this.2⟩

theorem apply_canonical {op : ArithOp} {x y r : Raw} (hn : o.NormalizesOutput) (hx : x.InRange T)
    (hy : y.InRange T) (h : apply T o op x y ⇓ r) (hr : r.den ≠ 0) : Canonical r := by
  rw [apply_eq] at h
  rcases Ops.arith_canonical (a := .ff x y) hn ⟨hx, hy⟩ h with h | rfl
  · exact h
  · exact absurd rfl hr

theorem apply_inRange {op : ArithOp} {x y r : Raw} (hx : x.InRange T)
    (hy : y.InRange T) (h : apply T o op x y ⇓ r) : r.InRange T := by
  rw [apply_eq] at h
  exact Ops.arith_inRange (a := .ff x y) ⟨hx, hy⟩ h

namespace Grouping

theorem elements_pos (g : Grouping) : 0 < g.elements.length := by
  induction g with
  | one => simp [elements]
  | both l r hl hr => simp only [elements, List.length_append]; omega

theorem eval_plus {g : Grouping} {r : Raw} (hd : AllDefined g.elements)
    (h : g.eval T o .plus ⇓ r) : r.den ≠ 0 ∧ r.quot = sumOf g.elements := by
  induction g generalizing r with
  | one x =>
    obtain rfl : x = r := by simpa [eval] using h
    exact ⟨hd x (by simp [elements]), by simp [sumOf, elements]⟩
  | both a b iha ihb =>
    simp only [eval, bind_eq_clean] at h
    obtain ⟨u, hu, v, hv, h⟩ := h
    obtain ⟨u0, eu⟩ := iha (fun x hx => hd x (by simp [elements, hx])) hu
    obtain ⟨v0, ev⟩ := ihb (fun x hx => hd x (by simp [elements, hx])) hv
    obtain ⟨r0, er⟩ := apply_plus u0 v0 h
    exact ⟨r0, by rw [er, eu, ev]; simp [sumOf, elements]⟩

theorem eval_multiplies {g : Grouping} {r : Raw} (hd : AllDefined g.elements)
    (h : g.eval T o .multiplies ⇓ r) : r.den ≠ 0 ∧ r.quot = prodOf g.elements := by
  induction g generalizing r with
  | one x =>
    obtain rfl : x = r := by simpa [eval] using h
    exact ⟨hd x (by simp [elements]), by simp [prodOf, elements]⟩
  | both a b iha ihb =>
    simp only [eval, bind_eq_clean] at h
    obtain ⟨u, hu, v, hv, h⟩ := h
    obtain ⟨u0, eu⟩ := iha (fun x hx => hd x (by simp [elements, hx])) hu
    obtain ⟨v0, ev⟩ := ihb (fun x hx => hd x (by simp [elements, hx])) hv
    obtain ⟨r0, er⟩ := apply_multiplies u0 v0 h
    exact ⟨r0, by rw [er, eu, ev]; simp [prodOf, elements]⟩

theorem eval_inRange {op : ArithOp} {g : Grouping} {r : Raw} (hi : ∀ x ∈ g.elements, x.InRange T)
    (h : g.eval T o op ⇓ r) : r.InRange T := by
  induction g generalizing r with
  | one x =>
    obtain rfl : x = r := by simpa [eval] using h
    exact hi x (by simp [elements])
  | both a b iha ihb =>
    simp only [eval, bind_eq_clean] at h
    obtain ⟨u, hu, v, hv, h⟩ := h
    exact apply_inRange (iha (fun x hx => hi x (by simp [elements, hx])) hu)
      (ihb (fun x hx => hi x (by simp [elements, hx])) hv) h

theorem eval_canonical {op : ArithOp} {g : Grouping} {r : Raw} (hn : o.NormalizesOutput)
    (hi : ∀ x ∈ g.elements, x.InRange T) (hl : g.elements.length ≠ 1) (h : g.eval T o op ⇓ r)
    (hr : r.den ≠ 0) : Canonical r := by
  cases g with
  | one x => simp [elements] at hl
  | both a b =>
    simp only [eval, bind_eq_clean] at h
    obtain ⟨u, hu, v, hv, h⟩ := h
    exact apply_canonical hn (eval_inRange (fun x hx => hi x (by simp [elements, hx])) hu)
      (eval_inRange (fun x hx => hi x (by simp [elements, hx])) hv) h hr

/-- Two bracketings of one element give that element. -/
theorem eval_one {op : ArithOp} {g g' : Grouping} {r r' : Raw} (hp : g.elements.Perm g'.elements)
    (hl : g.elements.length = 1) (h : g.eval T o op ⇓ r) (h' : g'.eval T o op ⇓ r') : r = r' := by
  cases g with
  | both a b =>
    have := a.elements_pos; have := b.elements_pos
    simp only [elements, List.length_append] at hl; omega
  | one x =>
    cases g' with
    | both a b =>
      have := a.elements_pos; have := b.elements_pos
      have := hp.length_eq
      simp only [elements, List.length_append, List.length_singleton] at this; omega
    | one y =>
      obtain rfl : x = y := by simpa [elements] using hp
      obtain rfl : x = r := by simpa [eval] using h
      simpa [eval] using h'

theorem weight_nonneg (D : ℤ) (xs : List Raw) : 0 ≤ weightOver D xs := by
  unfold weightOver
  refine List.sum_nonneg fun x hx => ?_
  obtain ⟨y, -, rfl⟩ := List.mem_map.1 hx
  exact abs_nonneg _

theorem eval_on {D : ℤ} {g : Grouping} (ho : o.BasedOnSafe) (hs : T.signed = true)
    (hD : 0 < D) (hDm : D ≤ T.max) (hd : ∀ x ∈ g.elements, x.den ≠ 0 ∧ x.den ∣ D)
    (hw : weightOver D g.elements ≤ T.max) :
    ∃ r, g.eval T o .plus ⇓ r ∧ r.On T D ∧ |r.over D| ≤ weightOver D g.elements := by
  induction g with
  | one x =>
    have := hd x (by simp [elements])
    have e : weightOver D [x] = |x.over D| := by simp [weightOver]
    simp only [elements] at hw ⊢
    rw [e] at hw ⊢
    exact ⟨x, rfl, ⟨this.1, this.2, hw⟩, le_rfl⟩
  | both a b iha ihb =>
    have e : weightOver D (both a b).elements =
        weightOver D a.elements + weightOver D b.elements := by simp [weightOver, elements]
    have na := weight_nonneg D a.elements
    have nb := weight_nonneg D b.elements
    rw [e] at hw ⊢
    obtain ⟨u, hu, ou, wu⟩ := iha (fun x hx => hd x (by simp [elements, hx])) (by omega)
    obtain ⟨v, hv, ov, wv⟩ := ihb (fun x hx => hd x (by simp [elements, hx])) (by omega)
    have hab : |u.over D + v.over D| ≤ weightOver D a.elements + weightOver D b.elements :=
      (abs_add_le _ _).trans (by omega)
    obtain ⟨r, hr, on, er⟩ := Ops.arith_on (a := .ff u v) (op := .plus) ho hs (.inl rfl) hD hDm
      ⟨ou, ov⟩ (by simpa [ArithOp.overCommon, Args.left, Args.right] using hab.trans hw)
    refine ⟨r, ?_, on, ?_⟩
    · rw [eval, hu, ok_bind_false, hv, ok_bind_false, apply_eq]; exact hr
    · rw [er]; simpa [ArithOp.overCommon, Args.left, Args.right] using hab

/-- The bracketing of `std::accumulate`. -/
def leftmost (g : Grouping) : List Raw → Grouping
  | [] => g
  | x :: xs => leftmost (.both g (.one x)) xs

theorem leftmost_elements (g : Grouping) (xs : List Raw) :
    (leftmost g xs).elements = g.elements ++ xs := by
  induction xs generalizing g with
  | nil => simp [leftmost]
  | cons x xs ih => simp [leftmost, ih, elements]

theorem eval_leftmost (op : ArithOp) (g : Grouping) (xs : List Raw) :
    (leftmost g xs).eval T o op = (do let a ← g.eval T o op; accumulate T o op a xs) := by
  induction xs generalizing g with
  | nil => simp only [leftmost, accumulate, bind_pure]
  | cons x xs ih => rw [leftmost, ih]; simp only [eval, accumulate, bind_assoc, pure_bind]

/-- The expression with the same structure. -/
def toExpr (op : ArithOp) : Grouping → Expr
  | .one x => .lit x
  | .both l r => .ff op (l.toExpr op) (r.toExpr op)

theorem eval_toExpr (op : ArithOp) (g : Grouping) : (g.toExpr op).eval T o = g.eval T o op := by
  induction g with
  | one x => rfl
  | both l r hl hr => simp only [toExpr, Expr.eval, eval, hl, hr, apply]

theorem leaves_toExpr (op : ArithOp) (g : Grouping) :
    (g.toExpr op).leaves = g.elements.length := by
  induction g with
  | one x => rfl
  | both l r hl hr => simp [toExpr, Expr.leaves, elements, hl, hr]

theorem leavesLe_toExpr {B : ℕ} (op : ArithOp) {g : Grouping}
    (h : ∀ x ∈ g.elements, x.AbsLe B) : (g.toExpr op).LeavesLe B := by
  induction g with
  | one x => exact h x (by simp [elements])
  | both l r hl hr =>
    exact ⟨hl fun x hx => h x (by simp [elements, hx]), hr fun x hx => h x (by simp [elements, hx])⟩

theorem leavesInRange_toExpr (op : ArithOp) {g : Grouping}
    (h : ∀ x ∈ g.elements, x.InRange T) : (g.toExpr op).LeavesInRange T := by
  induction g with
  | one x => exact h x (by simp [elements])
  | both l r hl hr =>
    exact ⟨hl fun x hx => h x (by simp [elements, hx]), hr fun x hx => h x (by simp [elements, hx])⟩

theorem noMinus_toExpr {op : ArithOp} (hop : op ≠ .minus) (g : Grouping) :
    (g.toExpr op).NoMinus := by
  induction g with
  | one x => trivial
  | both l r hl hr => exact ⟨hop, hl, hr⟩

theorem value_plus {g : Grouping} (hd : AllDefined g.elements) :
    (g.toExpr .plus).value = some (sumOf g.elements) := by
  induction g with
  | one x =>
    have := hd x (by simp [elements])
    simp [toExpr, Expr.value, litValue, this, sumOf, elements, Raw.quot]
  | both l r hl hr =>
    rw [toExpr, Expr.value, hl fun x hx => hd x (by simp [elements, hx]),
      hr fun x hx => hd x (by simp [elements, hx])]
    simp [ArithOp.value, sumOf, elements]

theorem value_multiplies {g : Grouping} (hd : AllDefined g.elements) :
    (g.toExpr .multiplies).value = some (prodOf g.elements) := by
  induction g with
  | one x =>
    have := hd x (by simp [elements])
    simp [toExpr, Expr.value, litValue, this, prodOf, elements, Raw.quot]
  | both l r hl hr =>
    rw [toExpr, Expr.value, hl fun x hx => hd x (by simp [elements, hx]),
      hr fun x hx => hd x (by simp [elements, hx])]
    simp [ArithOp.value, prodOf, elements]

/-- Under `fast`, and for products under `safe`, denominators are multiplied. -/
theorem eval_den_prod {op : ArithOp} {g : Grouping} {r : Raw}
    (ho : o = .fast ∧ (op = .plus ∨ op = .multiplies) ∨ o = .safe ∧ op = .multiplies)
    (h : g.eval T o op ⇓ r) : r.den = (g.elements.map Raw.den).prod := by
  induction g generalizing r with
  | one x =>
    obtain rfl : x = r := by simpa [eval] using h
    simp [elements]
  | both a b iha ihb =>
    simp only [eval, bind_eq_clean] at h
    obtain ⟨u, hu, v, hv, h⟩ := h
    rw [apply_eq] at h
    have e : r.den = u.den * v.den := by
      rcases ho with ⟨rfl, rfl | rfl⟩ | ⟨rfl, rfl⟩
      · simp only [Ops.arith, Fast.arith, Fast.plusFF, bind_eq_clean, pure_eq_ok, mul_clean] at h
        obtain ⟨-, -, -, -, -, -, d, ⟨-, rfl⟩, rfl, -⟩ := h
        rfl
      · simp only [Ops.arith, Fast.arith, Fast.multipliesFF, bind_eq_clean, pure_eq_ok,
          mul_clean] at h
        obtain ⟨-, -, d, ⟨-, rfl⟩, rfl, -⟩ := h
        rfl
      · simp only [Ops.arith, Safe.arith, Safe.multipliesFF, bind_eq_clean, pure_eq_ok,
          mul_clean] at h
        obtain ⟨-, -, d, ⟨-, rfl⟩, rfl, -⟩ := h
        rfl
    rw [e, iha hu, ihb hv]; simp [elements]

/-- For sums under `safe` the denominator is the least common multiple. -/
theorem eval_den_lcm {g : Grouping} {r : Raw} (h : g.eval T .safe .plus ⇓ r) :
    (∀ m, r.den ∣ m ↔ ∀ x ∈ g.elements, x.den ∣ m) ∧ (g.elements.length ≠ 1 → 0 ≤ r.den) := by
  induction g generalizing r with
  | one x =>
    obtain rfl : x = r := by simpa [eval] using h
    simp [elements]
  | both a b iha ihb =>
    simp only [eval, bind_eq_clean] at h
    obtain ⟨u, hu, v, hv, h⟩ := h
    rw [apply_eq] at h
    have e : r.den = Int.lcm u.den v.den := by
      simp only [Ops.arith, Safe.arith, Safe.plusFF, bind_eq_clean, pure_eq_ok, lcm_eq_ok] at h
      obtain ⟨d, hd, -, -, -, -, -, -, -, -, -, -, rfl, -⟩ := h
      exact hd.2.2.2.1
    refine ⟨fun m => ?_, fun _ => by rw [e]; positivity⟩
    have el : ((Int.lcm u.den v.den : ℕ) : ℤ) ∣ m ↔ u.den ∣ m ∧ v.den ∣ m :=
      ⟨fun h => ⟨(Int.dvd_lcm_left ..).trans h, (Int.dvd_lcm_right ..).trans h⟩,
        fun h => Int.coe_lcm_dvd h.1 h.2⟩
    rw [e, el, (iha hu).1, (ihb hv).1]
    simp only [elements, List.mem_append]
    constructor
    · rintro ⟨h1, h2⟩ x (hx | hx)
      · exact h1 x hx
      · exact h2 x hx
    · exact fun h => ⟨fun x hx => h x (.inl hx), fun x hx => h x (.inr hx)⟩

end Grouping

theorem sumOf_cons (x : Raw) (xs : List Raw) : sumOf (x :: xs) = x.quot + sumOf xs := by
  simp [sumOf]

theorem innerProduct_value {xs ys : List Raw} {acc r : Raw} (ha : acc.den ≠ 0)
    (hx : AllDefined xs) (hy : AllDefined ys) (h : innerProduct T o acc xs ys ⇓ r) :
    r.den ≠ 0 ∧ r.quot = acc.quot + dotOf xs ys := by
  induction xs generalizing acc ys with
  | nil =>
    obtain rfl : acc = r := by simpa [innerProduct] using h
    exact ⟨ha, by simp [dotOf]⟩
  | cons x xs ih =>
    cases ys with
    | nil =>
      obtain rfl : acc = r := by simpa [innerProduct] using h
      exact ⟨ha, by simp [dotOf]⟩
    | cons y ys =>
      simp only [innerProduct, bind_eq_clean] at h
      obtain ⟨p, hp, a, h1, h⟩ := h
      obtain ⟨p0, ep⟩ := apply_multiplies (hx x (by simp)) (hy y (by simp)) hp
      obtain ⟨a0, ea⟩ := apply_plus ha p0 h1
      obtain ⟨r0, er⟩ := ih a0 (fun z hz => hx z (by simp [hz])) (fun z hz => hy z (by simp [hz])) h
      exact ⟨r0, by rw [er, ea, ep]; simp [dotOf]; ring⟩

theorem partialSumFrom_value {xs rs : List Raw} {acc : Raw} (ha : acc.den ≠ 0)
    (hx : AllDefined xs) (h : partialSumFrom T o acc xs ⇓ rs) :
    rs.length = xs.length ∧ AllDefined rs ∧
      ∀ (k : ℕ) (r : Raw), rs[k]? = some r → r.quot = acc.quot + sumOf (xs.take (k + 1)) := by
  induction xs generalizing acc rs with
  | nil =>
    obtain rfl : [] = rs := by simpa [partialSumFrom] using h
    simp [AllDefined]
  | cons x xs ih =>
    simp only [partialSumFrom, bind_eq_clean] at h
    obtain ⟨a, h1, ss, h2, h⟩ := h
    obtain rfl : a :: ss = rs := by simpa using h
    obtain ⟨a0, ea⟩ := apply_plus ha (hx x (by simp)) h1
    obtain ⟨hl, hd, hv⟩ := ih a0 (fun z hz => hx z (by simp [hz])) h2
    refine ⟨by simp [hl], ?_, ?_⟩
    · intro z hz
      rcases List.mem_cons.1 hz with rfl | hz
      · exact a0
      · exact hd z hz
    · rintro (_ | k) r hr
      · obtain rfl : a = r := by simpa using hr
        simp [ea, sumOf]
      · rw [hv k r (by simpa using hr), ea, List.take_succ_cons, sumOf_cons]; ring

theorem partialSum_value {xs rs : List Raw} (hx : AllDefined xs) (h : partialSum T o xs ⇓ rs) :
    rs.length = xs.length ∧ AllDefined rs ∧
      ∀ (k : ℕ) (r : Raw), rs[k]? = some r → r.quot = sumOf (xs.take (k + 1)) := by
  cases xs with
  | nil =>
    obtain rfl : [] = rs := by simpa [partialSum] using h
    simp [AllDefined]
  | cons x xs =>
    simp only [partialSum, bind_eq_clean] at h
    obtain ⟨ss, h2, h⟩ := h
    obtain rfl : x :: ss = rs := by simpa using h
    obtain ⟨hl, hd, hv⟩ := partialSumFrom_value (hx x (by simp)) (fun z hz => hx z (by simp [hz])) h2
    refine ⟨by simp [hl], ?_, ?_⟩
    · intro z hz
      rcases List.mem_cons.1 hz with rfl | hz
      · exact hx _ (by simp)
      · exact hd z hz
    · rintro (_ | k) r hr
      · obtain rfl : x = r := by simpa using hr
        simp [sumOf]
      · rw [hv k r (by simpa using hr), List.take_succ_cons, sumOf_cons]

theorem differencesFrom_value {xs rs : List Raw} {prev : Raw} (ha : prev.den ≠ 0)
    (hx : AllDefined xs) (h : differencesFrom T o prev xs ⇓ rs) :
    rs.length = xs.length ∧ AllDefined rs ∧
      ∀ (k : ℕ) (x y r : Raw), (prev :: xs)[k]? = some x → xs[k]? = some y → rs[k]? = some r →
        r.quot = y.quot - x.quot := by
  induction xs generalizing prev rs with
  | nil =>
    obtain rfl : [] = rs := by simpa [differencesFrom] using h
    simp [AllDefined]
  | cons x xs ih =>
    simp only [differencesFrom, bind_eq_clean] at h
    obtain ⟨d, h1, ss, h2, h⟩ := h
    obtain rfl : d :: ss = rs := by simpa using h
    obtain ⟨d0, ed⟩ := apply_minus (hx x (by simp)) ha h1
    obtain ⟨hl, hd, hv⟩ := ih (hx x (by simp)) (fun z hz => hx z (by simp [hz])) h2
    refine ⟨by simp [hl], ?_, ?_⟩
    · intro z hz
      rcases List.mem_cons.1 hz with rfl | hz
      · exact d0
      · exact hd z hz
    · rintro (_ | k) u v r hu hv' hr
      · obtain rfl : prev = u := by simpa using hu
        obtain rfl : x = v := by simpa using hv'
        obtain rfl : d = r := by simpa using hr
        exact ed
      · exact hv k u v r (by simpa using hu) (by simpa using hv') (by simpa using hr)

theorem adjacentDifference_value {xs rs : List Raw} (hx : AllDefined xs)
    (h : adjacentDifference T o xs ⇓ rs) :
    rs.length = xs.length ∧ AllDefined rs ∧ rs[0]? = xs[0]? ∧
      ∀ (k : ℕ) (x y r : Raw), xs[k]? = some x → xs[k + 1]? = some y → rs[k + 1]? = some r →
        r.quot = y.quot - x.quot := by
  cases xs with
  | nil =>
    obtain rfl : [] = rs := by simpa [adjacentDifference] using h
    simp [AllDefined]
  | cons x xs =>
    simp only [adjacentDifference, bind_eq_clean] at h
    obtain ⟨ss, h2, h⟩ := h
    obtain rfl : x :: ss = rs := by simpa using h
    obtain ⟨hl, hd, hv⟩ := differencesFrom_value (hx x (by simp)) (fun z hz => hx z (by simp [hz])) h2
    refine ⟨by simp [hl], ?_, rfl, ?_⟩
    · intro z hz
      rcases List.mem_cons.1 hz with rfl | hz
      · exact hx _ (by simp)
      · exact hd z hz
    · intro k u v r hu hv' hr
      exact hv k u v r hu (by simpa using hv') (by simpa using hr)

/-- The loops produce reduced fractions under a normalising policy. -/
theorem partialSumFrom_canonical {xs rs : List Raw} {acc : Raw} (hn : o.NormalizesOutput)
    (ha : acc.den ≠ 0) (hx : AllDefined xs) (hai : acc.InRange T) (hi : ∀ x ∈ xs, x.InRange T)
    (h : partialSumFrom T o acc xs ⇓ rs) : ∀ r ∈ rs, Canonical r ∧ r.InRange T := by
  induction xs generalizing acc rs with
  | nil =>
    obtain rfl : [] = rs := by simpa [partialSumFrom] using h
    simp
  | cons x xs ih =>
    simp only [partialSumFrom, bind_eq_clean] at h
    obtain ⟨a, h1, ss, h2, h⟩ := h
    obtain rfl : a :: ss = rs := by simpa using h
    have a0 := (apply_plus ha (hx x (by simp)) h1).1
    have ai := apply_inRange hai (hi x (by simp)) h1
    intro z hz
    rcases List.mem_cons.1 hz with rfl | hz
    · exact ⟨apply_canonical hn hai (hi x (by simp)) h1 a0, ai⟩
    · exact ih a0 (fun z hz => hx z (by simp [hz])) ai (fun z hz => hi z (by simp [hz])) h2 z hz

theorem differencesFrom_canonical {xs rs : List Raw} {prev : Raw} (hn : o.NormalizesOutput)
    (ha : prev.den ≠ 0) (hx : AllDefined xs) (hai : prev.InRange T) (hi : ∀ x ∈ xs, x.InRange T)
    (h : differencesFrom T o prev xs ⇓ rs) : ∀ r ∈ rs, Canonical r ∧ r.InRange T := by
  induction xs generalizing prev rs with
  | nil =>
    obtain rfl : [] = rs := by simpa [differencesFrom] using h
    simp
  | cons x xs ih =>
    simp only [differencesFrom, bind_eq_clean] at h
    obtain ⟨d, h1, ss, h2, h⟩ := h
    obtain rfl : d :: ss = rs := by simpa using h
    have d0 := (apply_minus (hx x (by simp)) ha h1).1
    intro z hz
    rcases List.mem_cons.1 hz with rfl | hz
    · exact ⟨apply_canonical hn (hi x (by simp)) hai h1 d0, apply_inRange (hi x (by simp)) hai h1⟩
    · exact ih (hx x (by simp)) (fun z hz => hx z (by simp [hz])) (hi x (by simp))
        (fun z hz => hi z (by simp [hz])) h2 z hz

theorem partialSum_canonical {xs rs : List Raw} (hn : o.NormalizesOutput)
    (hc : ∀ x ∈ xs, Canonical x ∧ x.InRange T) (h : partialSum T o xs ⇓ rs) :
    ∀ r ∈ rs, Canonical r ∧ r.InRange T := by
  cases xs with
  | nil =>
    obtain rfl : [] = rs := by simpa [partialSum] using h
    simp
  | cons x xs =>
    simp only [partialSum, bind_eq_clean] at h
    obtain ⟨ss, h2, h⟩ := h
    obtain rfl : x :: ss = rs := by simpa using h
    intro z hz
    rcases List.mem_cons.1 hz with rfl | hz
    · exact hc _ (by simp)
    · exact partialSumFrom_canonical hn (hc x (by simp)).1.1.ne'
        (fun z hz => (hc z (by simp [hz])).1.1.ne') (hc x (by simp)).2
        (fun z hz => (hc z (by simp [hz])).2) h2 z hz

theorem adjacentDifference_canonical {xs rs : List Raw} (hn : o.NormalizesOutput)
    (hc : ∀ x ∈ xs, Canonical x ∧ x.InRange T) (h : adjacentDifference T o xs ⇓ rs) :
    ∀ r ∈ rs, Canonical r ∧ r.InRange T := by
  cases xs with
  | nil =>
    obtain rfl : [] = rs := by simpa [adjacentDifference] using h
    simp
  | cons x xs =>
    simp only [adjacentDifference, bind_eq_clean] at h
    obtain ⟨ss, h2, h⟩ := h
    obtain rfl : x :: ss = rs := by simpa using h
    intro z hz
    rcases List.mem_cons.1 hz with rfl | hz
    · exact hc _ (by simp)
    · exact differencesFrom_canonical hn (hc x (by simp)).1.1.ne'
        (fun z hz => (hc z (by simp [hz])).1.1.ne') (hc x (by simp)).2
        (fun z hz => (hc z (by simp [hz])).2) h2 z hz

/-- Differences of prefix sums are the elements. -/
theorem sumOf_take_succ {xs : List Raw} {k : ℕ} {x : Raw} (h : xs[k]? = some x) :
    sumOf (xs.take (k + 1)) = sumOf (xs.take k) + x.quot := by
  rw [List.take_add_one, h]; simp [sumOf]

theorem map_quot_ext {xs ys : List Raw} (hl : xs.length = ys.length)
    (h : ∀ (k : ℕ) (x y : Raw), xs[k]? = some x → ys[k]? = some y → x.quot = y.quot) :
    xs.map Raw.quot = ys.map Raw.quot := by
  apply List.ext_getElem (by simpa using hl)
  intro k h1 h2
  simp only [List.length_map] at h1 h2
  simp only [List.getElem_map]
  exact h k _ _ (List.getElem?_eq_getElem h1) (List.getElem?_eq_getElem h2)

theorem eq_of_map_quot {xs ys : List Raw} (hx : ∀ x ∈ xs, Canonical x) (hy : ∀ y ∈ ys, Canonical y)
    (h : xs.map Raw.quot = ys.map Raw.quot) : xs = ys := by
  induction xs generalizing ys with
  | nil => cases ys with | nil => rfl | cons => simp at h
  | cons x xs ih =>
    cases ys with
    | nil => simp at h
    | cons y ys =>
      simp only [List.map_cons, List.cons.injEq] at h
      rw [Canonical.eq_of_quot (hx x (by simp)) (hy y (by simp)) h.1,
        ih (fun z hz => hx z (by simp [hz])) (fun z hz => hy z (by simp [hz])) h.2]

theorem difference_of_sums {xs ys zs : List Raw} (hx : AllDefined xs)
    (h1 : partialSum T o xs ⇓ ys) (h2 : adjacentDifference T o ys ⇓ zs) :
    zs.map Raw.quot = xs.map Raw.quot := by
  obtain ⟨l1, d1, v1⟩ := partialSum_value hx h1
  obtain ⟨l2, -, z0, v2⟩ := adjacentDifference_value d1 h2
  refine map_quot_ext (l2.trans l1) ?_
  rintro (_ | k) z x hz hx'
  · rw [z0] at hz
    rw [v1 0 z hz, sumOf_take_succ hx']; simp [sumOf]
  · have hk : k + 1 < ys.length := by
      rw [l1]; exact (List.getElem?_eq_some_iff.1 hx').1
    have e0 : ys[k]? = some ys[k] := List.getElem?_eq_getElem _
    have e1 : ys[k + 1]? = some ys[k + 1] := List.getElem?_eq_getElem hk
    rw [v2 k _ _ z e0 e1 hz, v1 _ _ e0, v1 _ _ e1, sumOf_take_succ hx']; ring

theorem sums_of_difference {xs ys zs : List Raw} (hx : AllDefined xs)
    (h1 : adjacentDifference T o xs ⇓ ys) (h2 : partialSum T o ys ⇓ zs) :
    zs.map Raw.quot = xs.map Raw.quot := by
  obtain ⟨l1, d1, y0, v1⟩ := adjacentDifference_value hx h1
  obtain ⟨l2, -, v2⟩ := partialSum_value d1 h2
  have key : ∀ k x, xs[k]? = some x → sumOf (ys.take (k + 1)) = x.quot := by
    intro k
    induction k with
    | zero =>
      intro x hx'
      rw [sumOf_take_succ (y0.trans hx')]; simp [sumOf]
    | succ k ih =>
      intro x hx'
      have hk := (List.getElem?_eq_some_iff.1 hx').1
      have hk' : k + 1 < ys.length := by omega
      have e0 : xs[k]? = some xs[k] := List.getElem?_eq_getElem _
      have e1 : ys[k + 1]? = some ys[k + 1] := List.getElem?_eq_getElem hk'
      rw [sumOf_take_succ e1, ih _ e0, v1 k _ _ _ e0 hx' e1]; ring
  refine map_quot_ext (l2.trans l1) fun k z x hz hx' => ?_
  rw [v2 k z hz, key k x hx']

end Std

end Ieme
