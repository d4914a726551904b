import Verif.Model.Algorithms
import Verif.Spec.Algorithms
import Verif.Props.Compare
import Verif.Lemmas.Reduce
import Mathlib.Data.List.Sort

/-!
# Standard algorithms on fractions: property C108
-/

namespace Ieme

open Res IntTy

variable {T : IntTy} {o : Ops} {x y z v lo hi r : Raw} {b : Bool} {l l' : List Raw} {n : ℕ}

/-- **C108** `<` on fractions the policy orders is the order of the values. -/
theorem C108_less (hx : o.Orders x) (hy : o.Orders y) (h : Std.lt T o x y ⇓ b) :
    b = true ↔ x.quot < y.quot := by
  rw [Std.lt, Fraction.cmp_self] at h
  rcases hx with hx | ⟨hs, hx⟩
  · rcases hy with hy | ⟨hs, hy⟩
    · exact C15_order_exact_partial (a := .ff x y) (op := .less)
        ⟨denotes_self hx.ne', denotes_self hy.ne'⟩ ⟨hx, hy⟩ h
    · exact C15_safe_ff_exact (op := .less) hs (denotes_self hx.ne') (denotes_self hy) h
  · exact C15_safe_ff_exact (op := .less) hs (denotes_self hx)
      (denotes_self (hy.elim (fun h => h.ne') (fun h => h.2))) h

/-- Minus one half before minus one third, with all four sign patterns, under the default
policy. -/
example : Ops.defaults.Orders ⟨1, -2⟩ ∧ Ops.defaults.Orders ⟨-1, 3⟩ ∧ Ops.fast.Orders ⟨-1, 3⟩ ∧
    Std.lt i32 .defaults ⟨1, -2⟩ ⟨-1, 3⟩ ⇓ true ∧ Std.lt i32 .defaults ⟨-1, 3⟩ ⟨1, -2⟩ ⇓ false :=
  ⟨.inr ⟨trivial, by decide⟩, .inl (by decide), .inl (by decide), by decide, by decide⟩

/-- **C108** `std::max` and `std::min` return one of their arguments, of the larger or smaller
value, and the first one when the values are equal. -/
theorem C108_max_min (hx : o.Orders x) (hy : o.Orders y) :
    (Std.max T o x y ⇓ r → r = if x.quot < y.quot then y else x) ∧
    (Std.min T o x y ⇓ r → r = if y.quot < x.quot then y else x) := by
  constructor <;> intro h <;> simp only [Std.max, Std.min, bind_eq_clean] at h <;>
    obtain ⟨b, hb, h⟩ := h
  · have := C108_less hx hy hb
    cases b <;> simp only [pure_eq_ok, and_true, Bool.false_eq_true, if_false, if_true] at h <;>
      simp_all
  · have := C108_less hy hx hb
    cases b <;> simp only [pure_eq_ok, and_true, Bool.false_eq_true, if_false, if_true] at h <;>
      simp_all

example : Std.max i32 .defaults ⟨2, 4⟩ ⟨1, 2⟩ ⇓ ⟨2, 4⟩ ∧ Std.max i32 .fast ⟨-1, 2⟩ ⟨-1, 3⟩ ⇓ ⟨-1, 3⟩ ∧
    Std.min i32 .safe ⟨1, -2⟩ ⟨-1, 3⟩ ⇓ ⟨1, -2⟩ ∧ Std.min i32 .fast ⟨3, 6⟩ ⟨1, 2⟩ ⇓ ⟨3, 6⟩ := by decide

/-- **C108** `std::clamp` with bounds in order returns the value inside them nearest to `v`. -/
theorem C108_clamp (hv : o.Orders v) (hl : o.Orders lo) (hh : o.Orders hi)
    (hlh : lo.quot ≤ hi.quot) (h : Std.clamp T o v lo hi ⇓ r) :
    r.quot = max lo.quot (min v.quot hi.quot) ∧ (lo.quot ≤ v.quot → v.quot ≤ hi.quot → r = v) := by
  simp only [Std.clamp, bind_eq_clean] at h
  obtain ⟨b, hb, h⟩ := h
  have e := C108_less hv hl hb
  cases b with
  | true =>
    simp only [if_true, pure_eq_ok, and_true] at h
    subst h
    have e := e.1 rfl
    refine ⟨?_, fun h => absurd e (not_lt.2 h)⟩
    rw [max_eq_left ((min_le_left _ _).trans e.le)]
  | false =>
    simp only [Bool.false_eq_true, if_false, bind_eq_clean] at h
    have e : lo.quot ≤ v.quot := not_lt.1 fun h => absurd (e.2 h) (by simp)
    obtain ⟨b, hb, h⟩ := h
    have e' := C108_less hh hv hb
    cases b with
    | true =>
      simp only [if_true, pure_eq_ok, and_true] at h
      subst h
      have e' := e'.1 rfl
      refine ⟨?_, fun _ h => absurd e' (not_lt.2 h)⟩
      rw [min_eq_right e'.le, max_eq_right hlh]
    | false =>
      simp only [Bool.false_eq_true, if_false, pure_eq_ok, and_true] at h
      subst h
      have e' : v.quot ≤ hi.quot := not_lt.1 fun h => absurd (e'.2 h) (by simp)
      exact ⟨by rw [min_eq_left e', max_eq_right e], fun _ _ => rfl⟩

example : Std.clamp i32 .defaults ⟨7, 2⟩ ⟨-1, 1⟩ ⟨10, 3⟩ ⇓ ⟨10, 3⟩ ∧
    Std.clamp i32 .defaults ⟨-7, 2⟩ ⟨-1, 1⟩ ⟨10, 3⟩ ⇓ ⟨-1, 1⟩ ∧
    Std.clamp i32 .fast ⟨9, 3⟩ ⟨-1, 1⟩ ⟨10, 3⟩ ⇓ ⟨9, 3⟩ := by decide

private theorem maxFrom_spec {xs : List Raw} {best : Raw} {i j : ℕ} {pre : List Raw}
    (hi : i = pre.length) (hj : j < pre.length) (hb : pre[j]? = some best)
    (hob : o.Orders best) (hxs : ∀ y ∈ xs, o.Orders y)
    (hpre : ∀ k y, pre[k]? = some y → y.quot ≤ best.quot ∧ (k < j → y.quot < best.quot))
    (h : Std.maxFrom T o best j i xs ⇓ n) :
    ∃ m, (pre ++ xs)[n]? = some m ∧
      ∀ k y, (pre ++ xs)[k]? = some y → y.quot ≤ m.quot ∧ (k < n → y.quot < m.quot) := by
  induction xs generalizing best i j pre with
  | nil =>
    simp only [Std.maxFrom, pure_eq_ok, and_true] at h
    subst h
    exact ⟨best, by simpa using hb, by simpa using hpre⟩
  | cons y ys ih =>
    simp only [Std.maxFrom, bind_eq_clean] at h
    obtain ⟨b, hlt, h⟩ := h
    have e := C108_less hob (hxs y (by simp)) hlt
    have hlen : i + 1 = (pre ++ [y]).length := by simp [hi]
    have at_ : ∀ k w, (pre ++ [y])[k]? = some w →
        (k < pre.length ∧ pre[k]? = some w) ∨ (k = pre.length ∧ w = y) := by
      intro k w hk
      rcases lt_trichotomy k pre.length with h1 | h1 | h1
      · rw [List.getElem?_append_left h1] at hk; exact .inl ⟨h1, hk⟩
      · subst h1; simp at hk; exact .inr ⟨rfl, hk.symm⟩
      · rw [List.getElem?_append_right h1.le] at hk
        rw [List.getElem?_eq_none (by simp; omega)] at hk
        exact absurd hk (by simp)
    have fin := fun {best j} (h1 : j < (pre ++ [y]).length) h2 h3 h4 h5 =>
      ih (best := best) (i := i + 1) (j := j) (pre := pre ++ [y]) hlen h1 h2 h3
        (fun y hy => hxs y (by simp [hy])) h4 h5
    simp only [List.append_assoc, List.singleton_append] at fin
    cases b with
    | true =>
      simp only [if_true] at h
      have e := e.1 rfl
      refine fin (by simp [hi]) (by simp [hi]) (hxs y (by simp)) ?_ h
      intro k w hk
      rcases at_ k w hk with ⟨h1, hk⟩ | ⟨rfl, rfl⟩
      · have := (hpre k w hk).1
        exact ⟨by linarith, fun _ => by linarith⟩
      · exact ⟨le_rfl, fun h => absurd h (by omega)⟩
    | false =>
      simp only [Bool.false_eq_true, if_false] at h
      have e : y.quot ≤ best.quot := not_lt.1 fun h => absurd (e.2 h) (by simp)
      refine fin (by simp; omega) (by rw [List.getElem?_append_left hj]; exact hb) hob ?_ h
      intro k w hk
      rcases at_ k w hk with ⟨h1, hk⟩ | ⟨rfl, rfl⟩
      · exact hpre k w hk
      · exact ⟨e, fun h => absurd h (by omega)⟩

private theorem minFrom_spec {xs : List Raw} {best : Raw} {i j : ℕ} {pre : List Raw}
    (hi : i = pre.length) (hj : j < pre.length) (hb : pre[j]? = some best)
    (hob : o.Orders best) (hxs : ∀ y ∈ xs, o.Orders y)
    (hpre : ∀ k y, pre[k]? = some y → best.quot ≤ y.quot ∧ (k < j → best.quot < y.quot))
    (h : Std.minFrom T o best j i xs ⇓ n) :
    ∃ m, (pre ++ xs)[n]? = some m ∧
      ∀ k y, (pre ++ xs)[k]? = some y → m.quot ≤ y.quot ∧ (k < n → m.quot < y.quot) := by
  induction xs generalizing best i j pre with
  | nil =>
    simp only [Std.minFrom, pure_eq_ok, and_true] at h
    subst h
    exact ⟨best, by simpa using hb, by simpa using hpre⟩
  | cons y ys ih =>
    simp only [Std.minFrom, bind_eq_clean] at h
    obtain ⟨b, hlt, h⟩ := h
    have e := C108_less (hxs y (by simp)) hob hlt
    have hlen : i + 1 = (pre ++ [y]).length := by simp [hi]
    have at_ : ∀ k w, (pre ++ [y])[k]? = some w →
        (k < pre.length ∧ pre[k]? = some w) ∨ (k = pre.length ∧ w = y) := by
      intro k w hk
      rcases lt_trichotomy k pre.length with h1 | h1 | h1
      · rw [List.getElem?_append_left h1] at hk; exact .inl ⟨h1, hk⟩
      · subst h1; simp at hk; exact .inr ⟨rfl, hk.symm⟩
      · rw [List.getElem?_append_right h1.le] at hk
        rw [List.getElem?_eq_none (by simp; omega)] at hk
        exact absurd hk (by simp)
    have fin := fun {best j} (h1 : j < (pre ++ [y]).length) h2 h3 h4 h5 =>
      ih (best := best) (i := i + 1) (j := j) (pre := pre ++ [y]) hlen h1 h2 h3
        (fun y hy => hxs y (by simp [hy])) h4 h5
    simp only [List.append_assoc, List.singleton_append] at fin
    cases b with
    | true =>
      simp only [if_true] at h
      have e := e.1 rfl
      refine fin (by simp [hi]) (by simp [hi]) (hxs y (by simp)) ?_ h
      intro k w hk
      rcases at_ k w hk with ⟨h1, hk⟩ | ⟨rfl, rfl⟩
      · have := (hpre k w hk).1
        exact ⟨by linarith, fun _ => by linarith⟩
      · exact ⟨le_rfl, fun h => absurd h (by omega)⟩
    | false =>
      simp only [Bool.false_eq_true, if_false] at h
      have e : best.quot ≤ y.quot := not_lt.1 fun h => absurd (e.2 h) (by simp)
      refine fin (by simp; omega) (by rw [List.getElem?_append_left hj]; exact hb) hob ?_ h
      intro k w hk
      rcases at_ k w hk with ⟨h1, hk⟩ | ⟨rfl, rfl⟩
      · exact hpre k w hk
      · exact ⟨e, fun h => absurd h (by omega)⟩

/-- **C108** `std::max_element` finds the first of the largest elements. -/
theorem C108_max_element (hl : ∀ y ∈ x :: l, o.Orders y) (h : Std.maxElement T o x l ⇓ n) :
    ∃ m, (x :: l)[n]? = some m ∧
      ∀ k y, (x :: l)[k]? = some y → y.quot ≤ m.quot ∧ (k < n → y.quot < m.quot) :=
  maxFrom_spec (pre := [x]) rfl (by simp) rfl (hl x (by simp)) (fun y hy => hl y (by simp [hy]))
    (by
      intro k y hk
      cases k with
      | zero => simp only [List.getElem?_cons_zero, Option.some.injEq] at hk; subst hk; simp
      | succ k => simp at hk) h

/-- **C108** `std::min_element` finds the first of the smallest elements. -/
theorem C108_min_element (hl : ∀ y ∈ x :: l, o.Orders y) (h : Std.minElement T o x l ⇓ n) :
    ∃ m, (x :: l)[n]? = some m ∧
      ∀ k y, (x :: l)[k]? = some y → m.quot ≤ y.quot ∧ (k < n → m.quot < y.quot) :=
  minFrom_spec (pre := [x]) rfl (by simp) rfl (hl x (by simp)) (fun y hy => hl y (by simp [hy]))
    (by
      intro k y hk
      cases k with
      | zero => simp only [List.getElem?_cons_zero, Option.some.injEq] at hk; subst hk; simp
      | succ k => simp at hk) h

example : Std.maxElement i32 .defaults ⟨1, 3⟩ [⟨1, 2⟩, ⟨-1, 2⟩, ⟨2, 4⟩] ⇓ 1 ∧
    Std.minElement i32 .defaults ⟨1, 3⟩ [⟨1, -2⟩, ⟨-1, 2⟩, ⟨2, 4⟩] ⇓ 1 ∧
    ∀ y ∈ [(⟨1, 3⟩ : Raw), ⟨1, 2⟩, ⟨-1, 2⟩, ⟨2, 4⟩], Ops.fast.Orders y := by
  refine ⟨by decide, by decide, ?_⟩
  simp [Ops.Orders]

/-- **C108** `std::is_sorted` answers whether the values are in nondecreasing order. -/
theorem C108_is_sorted (hl : ∀ y ∈ l, o.Orders y) (h : Std.isSorted T o l ⇓ b) :
    b = true ↔ l.Pairwise fun x y => x.quot ≤ y.quot := by
  induction l with
  | nil => simp only [Std.isSorted, pure_eq_ok, and_true] at h; simp [← h]
  | cons x l ih =>
    cases l with
    | nil => simp only [Std.isSorted, pure_eq_ok, and_true] at h; simp [← h]
    | cons y ys =>
      simp only [Std.isSorted, bind_eq_clean] at h
      obtain ⟨c, hc, h⟩ := h
      have e := C108_less (hl y (by simp)) (hl x (by simp)) hc
      cases c with
      | true =>
        simp only [if_true, pure_eq_ok, and_true] at h
        have e := e.1 rfl
        subst h
        simp only [Bool.false_eq_true, List.pairwise_cons, false_iff, not_and]
        intro h
        exact absurd (h y (by simp)) (not_le.2 e)
      | false =>
        simp only [Bool.false_eq_true, if_false] at h
        have e : x.quot ≤ y.quot := not_lt.1 fun h => absurd (e.2 h) (by simp)
        rw [ih (fun y hy => hl y (by simp [hy])) h, List.pairwise_cons (a := x)]
        refine ⟨fun hp => ⟨fun w hw => ?_, hp⟩, fun hp => hp.2⟩
        rcases List.mem_cons.1 hw with rfl | hw
        · exact e
        · exact e.trans ((List.pairwise_cons.1 hp).1 w hw)

example : Std.isSorted i32 .defaults [⟨1, -2⟩, ⟨-1, 3⟩, ⟨0, 5⟩, ⟨1, 3⟩, ⟨2, 6⟩] ⇓ true ∧
    Std.isSorted i32 .fast [⟨-1, 2⟩, ⟨1, 3⟩, ⟨0, 5⟩] ⇓ false := by decide

private theorem lowerBoundFrom_spec (hl : ∀ y ∈ l, o.Orders y) (hv : o.Orders v)
    (hs : l.Pairwise fun x y => x.quot ≤ y.quot) {first len : ℕ} (hle : first + len ≤ l.length)
    (hlo : ∀ k y, l[k]? = some y → k < first → y.quot < v.quot)
    (hhi : ∀ k y, l[k]? = some y → first + len ≤ k → v.quot ≤ y.quot)
    (h : Std.lowerBoundFrom T o l v first len ⇓ n) :
    n ≤ l.length ∧ ∀ k y, l[k]? = some y → (k < n ↔ y.quot < v.quot) := by
  induction len using Nat.strong_induction_on generalizing first with
  | _ len ih =>
    rw [Std.lowerBoundFrom] at h
    by_cases h0 : len = 0
    · subst h0
      simp only [dif_pos, pure_eq_ok, and_true] at h
      subst h
      refine ⟨by omega, fun k y hk => ⟨hlo k y hk, fun hlt => ?_⟩⟩
      by_contra hn
      exact absurd (hhi k y hk (by omega)) (not_le.2 hlt)
    · simp only [h0, dite_false, bind_eq_clean] at h
      obtain ⟨c, hc, h⟩ := h
      have hmid : first + len / 2 < l.length := by omega
      have hget : l.getD (first + len / 2) v = l[first + len / 2] := by
        simp [List.getD, List.getElem?_eq_getElem hmid]
      rw [hget] at hc
      have e := C108_less (hl _ (List.getElem_mem hmid)) hv hc
      have mono : ∀ i j : ℕ, ∀ a b : Raw, l[i]? = some a → l[j]? = some b → i ≤ j →
          a.quot ≤ b.quot := by
        intro i j a b ha hb hij
        rcases hij.eq_or_lt with rfl | hij
        · rw [ha, Option.some.injEq] at hb; rw [hb]
        · obtain ⟨hi, rfl⟩ := List.getElem?_eq_some_iff.1 ha
          obtain ⟨hj, rfl⟩ := List.getElem?_eq_some_iff.1 hb
          exact List.pairwise_iff_getElem.1 hs i j hi hj hij
      have hm : l[first + len / 2]? = some l[first + len / 2] := List.getElem?_eq_getElem hmid
      cases c with
      | true =>
        simp only [if_true] at h
        have e := e.1 rfl
        refine ih _ (by omega) (by omega) ?_ ?_ h
        · intro k y hk hkl
          exact (mono k _ y _ hk hm (by omega)).trans_lt e
        · intro k y hk hkl
          exact hhi k y hk (by omega)
      | false =>
        simp only [Bool.false_eq_true, if_false] at h
        have e : v.quot ≤ (l[first + len / 2]).quot := not_lt.1 fun h => absurd (e.2 h) (by simp)
        refine ih _ (by omega) (by omega) hlo ?_ h
        intro k y hk hkl
        exact e.trans (mono _ k _ y hm hk hkl)

/-- **C108** `std::lower_bound` in a range sorted by value finds the position that separates the
smaller values from the others. -/
theorem C108_lower_bound (hl : ∀ y ∈ l, o.Orders y) (hv : o.Orders v)
    (hs : l.Pairwise fun x y => x.quot ≤ y.quot) (h : Std.lowerBound T o l v ⇓ n) :
    n ≤ l.length ∧ ∀ k y, l[k]? = some y → (k < n ↔ y.quot < v.quot) :=
  lowerBoundFrom_spec hl hv hs (by omega) (by omega)
    (by intro k y hk hk'
        have := (List.getElem?_eq_some_iff.1 hk).1
        omega) h

example : Std.lowerBound i32 .defaults [⟨-1, 2⟩, ⟨0, 1⟩, ⟨1, 3⟩, ⟨2, 6⟩, ⟨1, 2⟩] ⟨3, 9⟩ ⇓ 2 ∧
    [(⟨-1, 2⟩ : Raw), ⟨0, 1⟩, ⟨1, 3⟩, ⟨2, 6⟩, ⟨1, 2⟩].Pairwise fun x y => x.quot ≤ y.quot := by
  refine ⟨by decide +kernel, ?_⟩
  simp [Raw.quot]
  norm_num

/-- **C108** Whatever the algorithm, a range sorted with `<` — no element less than an earlier
one — is sorted by value. -/
theorem C108_sorted (hl : ∀ y ∈ l, o.Orders y)
    (h : l.Pairwise fun x y => Std.lt T o y x ⇓ false) :
    l.Pairwise fun x y => x.quot ≤ y.quot := by
  refine h.imp_of_mem fun {x y} hx hy hxy => ?_
  have := C108_less (hl y hy) (hl x hx) hxy
  simpa using this

/-- **C108** For fractions in lowest terms, and so for all results of the default policy, the sorted
order is unique: any two correct sorting algorithms give the same sequence, and `std::sort` and
`std::stable_sort` agree. -/
theorem C108_sort_unique (hp : l.Perm l') (hc : ∀ y ∈ l, Canonical y)
    (h : l.Pairwise fun x y => Std.lt T o y x ⇓ false)
    (h' : l'.Pairwise fun x y => Std.lt T o y x ⇓ false) : l = l' := by
  have hc' : ∀ y ∈ l', Canonical y := fun y hy => hc y (hp.mem_iff.2 hy)
  refine hp.eq_of_pairwise ?_ (C108_sorted (fun y hy => .inl (hc y hy).1) h)
    (C108_sorted (fun y hy => .inl (hc' y hy).1) h')
  intro x y hx hy hxy hyx
  refine Canonical.unique (hc x hx) (hc' y hy) ⟨x.quot, denotes_self (hc x hx).1.ne', ?_⟩
  rw [show x.quot = y.quot from le_antisymm hxy hyx]
  exact denotes_self (hc' y hy).1.ne'

example : [(⟨-1, 2⟩ : Raw), ⟨1, 3⟩, ⟨1, 2⟩].Pairwise fun x y => Std.lt i32 .defaults y x ⇓ false := by
  decide

/-- **C108** Without lowest terms it is not: `1/2` and `2/4` are sorted in both orders. -/
theorem C108_sort_not_unique : ∃ l l' : List Raw, l.Perm l' ∧ l ≠ l' ∧
    (∀ y ∈ l, Ops.safe.Orders y) ∧
    (l.Pairwise fun x y => Std.lt i32 .safe y x ⇓ false) ∧
    (l'.Pairwise fun x y => Std.lt i32 .safe y x ⇓ false) := by
  refine ⟨[⟨1, 2⟩, ⟨2, 4⟩], [⟨2, 4⟩, ⟨1, 2⟩], List.Perm.swap _ _ _, by decide, ?_, ?_, ?_⟩
  · simp [Ops.Orders]
  all_goals decide

/-- **C108** An algorithm fails only if a comparison does: if `<` finishes on all pairs of elements,
so do `std::max_element`, `std::min_element` and `std::is_sorted`. -/
theorem C108_finish (h : ∀ a ∈ x :: l, ∀ b ∈ x :: l, ∃ c, Std.lt T o a b ⇓ c) :
    (∃ n, Std.maxElement T o x l ⇓ n) ∧ (∃ n, Std.minElement T o x l ⇓ n) ∧
    ∃ b, Std.isSorted T o (x :: l) ⇓ b := by
  refine ⟨?_, ?_, ?_⟩
  · suffices ∀ (xs : List Raw) (best : Raw) (i j : ℕ), best ∈ x :: l → (∀ y ∈ xs, y ∈ x :: l) →
        ∃ n, Std.maxFrom T o best j i xs ⇓ n from
      this l x 1 0 (by simp) (fun y hy => by simp [hy])
    intro xs
    induction xs with
    | nil => intro best i j _ _; exact ⟨j, rfl⟩
    | cons y ys ih =>
      intro best i j hb hy
      obtain ⟨c, hc⟩ := h best hb y (hy y (by simp))
      rw [Std.maxFrom, hc, ok_bind_false]
      cases c
      · exact ih _ _ _ hb (fun y h => hy y (by simp [h]))
      · exact ih _ _ _ (hy y (by simp)) (fun y h => hy y (by simp [h]))
  · suffices ∀ (xs : List Raw) (best : Raw) (i j : ℕ), best ∈ x :: l → (∀ y ∈ xs, y ∈ x :: l) →
        ∃ n, Std.minFrom T o best j i xs ⇓ n from
      this l x 1 0 (by simp) (fun y hy => by simp [hy])
    intro xs
    induction xs with
    | nil => intro best i j _ _; exact ⟨j, rfl⟩
    | cons y ys ih =>
      intro best i j hb hy
      obtain ⟨c, hc⟩ := h y (hy y (by simp)) best hb
      rw [Std.minFrom, hc, ok_bind_false]
      cases c
      · exact ih _ _ _ hb (fun y h => hy y (by simp [h]))
      · exact ih _ _ _ (hy y (by simp)) (fun y h => hy y (by simp [h]))
  · induction l generalizing x with
    | nil => exact ⟨true, rfl⟩
    | cons y ys ih =>
      obtain ⟨c, hc⟩ := h y (by simp) x (by simp)
      rw [Std.isSorted, hc, ok_bind_false]
      cases c
      · exact ih (fun a ha b hb => h a (List.mem_cons_of_mem _ ha) b (List.mem_cons_of_mem _ hb))
      · exact ⟨false, rfl⟩

example : (∀ a ∈ [(⟨1, 3⟩ : Raw), ⟨1, 2⟩], ∀ b ∈ [(⟨1, 3⟩ : Raw), ⟨1, 2⟩],
    ∃ c, Std.lt i32 .safe a b ⇓ c) ∧
    Std.isSorted i32 .safe [⟨1, 65536⟩, ⟨1, 65537⟩] = .fault .lcmPrecond := by
  refine ⟨?_, by decide⟩
  simp only [List.mem_cons, List.not_mem_nil, or_false, forall_eq_or_imp, forall_eq]
  exact ⟨⟨⟨false, by decide⟩, ⟨true, by decide⟩⟩, ⟨false, by decide⟩, false, by decide⟩

/-- **C108** The conditions are needed. Under `fast`, negative denominators make `<` run in a circle
(`3 < 2 < 1 < 3`), so that no order of the three is sorted. With an undefined fraction even the
default policy has `1` and `2` both equivalent to it while `1 < 2`: `std::max_element` may then
return the undefined fraction, and `std::is_sorted` accepts `2, 0/0, 1`. -/
theorem C108_needed :
    (Std.lt i32 .fast ⟨3, 1⟩ ⟨-2, -1⟩ ⇓ true ∧ Std.lt i32 .fast ⟨-2, -1⟩ ⟨1, 1⟩ ⇓ true ∧
      Std.lt i32 .fast ⟨1, 1⟩ ⟨3, 1⟩ ⇓ true ∧
      ∀ l : List Raw, l.Perm [⟨3, 1⟩, ⟨-2, -1⟩, ⟨1, 1⟩] →
        ¬ l.Pairwise fun x y => Std.lt i32 .fast y x ⇓ false) ∧
    (Std.maxElement i32 .defaults ⟨0, 0⟩ [⟨1, 1⟩, ⟨2, 1⟩] ⇓ 0 ∧
      Std.isSorted i32 .defaults [⟨2, 1⟩, ⟨0, 0⟩, ⟨1, 1⟩] ⇓ true ∧
      Std.lt i32 .defaults ⟨1, 1⟩ ⟨2, 1⟩ ⇓ true ∧
      ∀ x : Raw, x ∈ [(⟨1, 1⟩ : Raw), ⟨2, 1⟩] →
        Std.lt i32 .defaults x ⟨0, 0⟩ ⇓ false ∧ Std.lt i32 .defaults ⟨0, 0⟩ x ⇓ false) := by
  refine ⟨⟨by decide, by decide, by decide, ?_⟩, by decide, by decide, by decide, ?_⟩
  · intro l hl hp
    cases l with
    | nil => exact absurd hl.length_eq (by decide)
    | cons x l =>
      have hx : x ∈ [(⟨3, 1⟩ : Raw), ⟨-2, -1⟩, ⟨1, 1⟩] := hl.mem_iff.1 (by simp)
      obtain ⟨y, hy, hne, hlt⟩ : ∃ y ∈ [(⟨3, 1⟩ : Raw), ⟨-2, -1⟩, ⟨1, 1⟩], y ≠ x ∧
          Std.lt i32 .fast y x ⇓ true := by
        simp only [List.mem_cons, List.not_mem_nil, or_false] at hx
        rcases hx with rfl | rfl | rfl
        · exact ⟨⟨1, 1⟩, by decide, by decide, by decide⟩
        · exact ⟨⟨3, 1⟩, by decide, by decide, by decide⟩
        · exact ⟨⟨-2, -1⟩, by decide, by decide, by decide⟩
      have hy' : y ∈ l := (List.mem_cons.1 (hl.mem_iff.2 hy)).resolve_left hne
      have := (List.pairwise_cons.1 hp).1 y hy'
      rw [hlt] at this
      exact absurd this (by simp)
  · simp only [List.mem_cons, List.not_mem_nil, or_false, forall_eq_or_imp, forall_eq]
    decide

end Ieme
