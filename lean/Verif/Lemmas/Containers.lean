import Verif.Model.Containers
import Verif.Spec.Containers
import Verif.Props.Algorithms
import Verif.Lemmas.Hash

/-!
# Lemmas about containers keyed by fractions
-/

namespace Ieme

open Res IntTy

variable {T : IntTy} {o : Ops} {k : Raw} {v : ℤ} {q : ℚ}

theorem firstWith_append (l l' : List (Raw × ℤ)) :
    firstWith q (l ++ l') = (firstWith q l).or (firstWith q l') := by
  induction l with
  | nil => simp [firstWith]
  | cons e l ih =>
    obtain ⟨k, v⟩ := e
    by_cases h : k.quot = q <;> simp [firstWith, h, ih]

theorem firstWith_none (l : List (Raw × ℤ)) (h : ∀ e ∈ l, e.1.quot ≠ q) : firstWith q l = none := by
  induction l with
  | nil => rfl
  | cons e l ih =>
    obtain ⟨k, v⟩ := e
    have := h _ (List.mem_cons_self ..)
    simp only at this
    simp only [firstWith, if_neg this]
    exact ih fun e he => h e (List.mem_cons_of_mem _ he)

theorem firstWith_eq_none_iff (l : List (Raw × ℤ)) :
    firstWith q l = none ↔ ∀ e ∈ l, e.1.quot ≠ q := by
  refine ⟨fun h => ?_, firstWith_none l⟩
  induction l with
  | nil => simp
  | cons e l ih =>
    obtain ⟨k, v⟩ := e
    by_cases hq : k.quot = q
    · simp [firstWith, hq] at h
    · simp only [firstWith, if_neg hq] at h
      intro e he
      rcases List.mem_cons.1 he with rfl | he
      · exact hq
      · exact ih h e he

theorem Ascending.inj {l : List (Raw × ℤ)} (h : Ascending l) :
    ∀ a ∈ l, ∀ b ∈ l, a.1.quot = b.1.quot → a = b := by
  induction l with
  | nil => simp
  | cons e l ih =>
    simp only [Ascending, List.pairwise_cons] at h
    intro a ha b hb hq
    rcases List.mem_cons.1 ha with rfl | ha' <;> rcases List.mem_cons.1 hb with rfl | hb'
    · rfl
    · exact absurd hq (h.1 b hb').ne
    · exact absurd hq (h.1 a ha').ne'
    · exact ih h.2 a ha' b hb' hq

/-- What insertion does to the entries, by value. -/
theorem Std.Tree.insert_spec {t t' : Std.Tree} (hk : o.Orders k)
    (ht : ∀ e ∈ t.entries, o.Orders e.1) (ha : Ascending t.entries)
    (h : t.insert T o k v ⇓ t') :
    Ascending t'.entries ∧ (∀ e ∈ t'.entries, e ∈ t.entries ∨ e = (k, v)) ∧
    (∀ e ∈ t.entries, e ∈ t'.entries) ∧
    (∀ q, firstWith q t'.entries =
      (firstWith q t.entries).or (if k.quot = q then some v else none)) := by
  induction t generalizing t' with
  | leaf =>
    simp only [Std.Tree.insert, pure_eq_ok] at h
    obtain ⟨rfl, -⟩ := h
    simp [Std.Tree.entries, Ascending, firstWith]
  | node l x w r ihl ihr =>
    simp only [Std.Tree.entries, List.mem_append, List.mem_cons] at ht
    have hx : o.Orders x := ht (x, w) (.inr (.inl rfl))
    simp only [Std.Tree.entries, Ascending, List.pairwise_append, List.pairwise_cons,
      List.mem_cons] at ha
    obtain ⟨al, ⟨axr, ar⟩, alr⟩ := ha
    simp only [Std.Tree.insert, bind_eq_clean] at h
    obtain ⟨b, hb, h⟩ := h
    have hb' := C108_less hk hx hb
    have fl : ∀ {q}, x.quot ≤ q → firstWith q l.entries = none := fun hq =>
      firstWith_none _ fun e he => ((alr e he _ (.inl rfl)).trans_le hq).ne
    have fr : ∀ {q}, q ≤ x.quot → firstWith q r.entries = none := fun hq =>
      firstWith_none _ fun e he => (hq.trans_lt (axr e he)).ne'
    cases b with
    | true =>
      have hlt := hb'.1 rfl
      simp only [if_true, bind_eq_clean, pure_eq_ok] at h
      obtain ⟨l', hl', rfl, -⟩ := h
      obtain ⟨i1, i2, i3, i4⟩ := ihl (fun e he => ht e (.inl he)) al hl'
      have small : ∀ e ∈ l'.entries, ∀ f, f = (x, w) ∨ f ∈ r.entries → e.1.quot < f.1.quot := by
        intro e he f hf
        rcases i2 e he with he | rfl
        · exact alr e he f hf
        · rcases hf with rfl | hf
          · exact hlt
          · exact hlt.trans (axr f hf)
      refine ⟨?_, ?_, ?_, ?_⟩
      · simp only [Std.Tree.entries, Ascending, List.pairwise_append, List.pairwise_cons,
          List.mem_cons]
        exact ⟨i1, ⟨axr, ar⟩, small⟩
      · simp only [Std.Tree.entries, List.mem_append, List.mem_cons]
        rintro e (he | rfl | he)
        · rcases i2 e he with h | h
          · exact .inl (.inl h)
          · exact .inr h
        · exact .inl (.inr (.inl rfl))
        · exact .inl (.inr (.inr he))
      · simp only [Std.Tree.entries, List.mem_append, List.mem_cons]
        rintro e (he | he)
        · exact .inl (i3 e he)
        · exact .inr he
      · intro q
        simp only [Std.Tree.entries, firstWith_append, firstWith, i4]
        by_cases hq : k.quot = q
        · subst hq
          rw [if_neg hlt.ne', fr hlt.le]
          simp
        · simp [hq]
    | false =>
      have hge : x.quot ≤ k.quot := le_of_not_gt fun c => by simpa using hb'.2 c
      simp only [Bool.false_eq_true, if_false, bind_eq_clean] at h
      obtain ⟨c, hc, h⟩ := h
      have hc' := C108_less hx hk hc
      cases c with
      | true =>
        have hlt := hc'.1 rfl
        simp only [if_true, bind_eq_clean, pure_eq_ok] at h
        obtain ⟨r', hr', rfl, -⟩ := h
        obtain ⟨i1, i2, i3, i4⟩ := ihr (fun e he => ht e (.inr (.inr he))) ar hr'
        have big : ∀ e ∈ r'.entries, x.quot < e.1.quot := by
          intro e he
          rcases i2 e he with he | rfl
          · exact axr e he
          · exact hlt
        refine ⟨?_, ?_, ?_, ?_⟩
        · simp only [Std.Tree.entries, Ascending, List.pairwise_append, List.pairwise_cons,
            List.mem_cons]
          refine ⟨al, ⟨big, i1⟩, ?_⟩
          rintro e he f (rfl | hf)
          · exact alr e he _ (.inl rfl)
          · exact (alr e he _ (.inl rfl)).trans (big f hf)
        · simp only [Std.Tree.entries, List.mem_append, List.mem_cons]
          rintro e (he | rfl | he)
          · exact .inl (.inl he)
          · exact .inl (.inr (.inl rfl))
          · rcases i2 e he with h | h
            · exact .inl (.inr (.inr h))
            · exact .inr h
        · simp only [Std.Tree.entries, List.mem_append, List.mem_cons]
          rintro e (he | he | he)
          · exact .inl he
          · exact .inr (.inl he)
          · exact .inr (.inr (i3 e he))
        · intro q
          simp only [Std.Tree.entries, firstWith_append, firstWith, i4]
          by_cases hq : x.quot = q <;> simp [hq, Option.or_assoc]
      | false =>
        have hle : k.quot ≤ x.quot := le_of_not_gt fun c => by simpa using hc'.2 c
        have he : k.quot = x.quot := le_antisymm hle hge
        simp only [Bool.false_eq_true, if_false, pure_eq_ok] at h
        obtain ⟨rfl, -⟩ := h
        refine ⟨?_, fun e he => .inl he, fun e he => he, ?_⟩
        · simp only [Std.Tree.entries, Ascending, List.pairwise_append, List.pairwise_cons,
            List.mem_cons]
          exact ⟨al, ⟨axr, ar⟩, alr⟩
        · intro q
          by_cases hq : k.quot = q
          · simp only [Std.Tree.entries, firstWith_append, firstWith, ← he, if_pos hq]
            simp
          · simp [hq]

/-- The lower bound, by value. -/
theorem Std.Tree.lowerBound_spec {t : Std.Tree} {best r : Option (Raw × ℤ)} (hk : o.Orders k)
    (ht : ∀ e ∈ t.entries, o.Orders e.1) (ha : Ascending t.entries)
    (h : t.lowerBound T o k best ⇓ r) :
    ((∀ e ∈ t.entries, e.1.quot < k.quot) ∧ r = best) ∨
    (∃ e, r = some e ∧ e ∈ t.entries ∧ k.quot ≤ e.1.quot ∧
      firstWith k.quot t.entries = if e.1.quot = k.quot then some e.2 else none) := by
  induction t generalizing best with
  | leaf =>
    simp only [Std.Tree.lowerBound, pure_eq_ok] at h
    exact .inl ⟨by simp [Std.Tree.entries], h.1.symm⟩
  | node l x w r ihl ihr =>
    simp only [Std.Tree.entries, List.mem_append, List.mem_cons] at ht
    have hx : o.Orders x := ht (x, w) (.inr (.inl rfl))
    simp only [Std.Tree.entries, Ascending, List.pairwise_append, List.pairwise_cons,
      List.mem_cons] at ha
    obtain ⟨al, ⟨axr, ar⟩, alr⟩ := ha
    simp only [Std.Tree.lowerBound, bind_eq_clean] at h
    obtain ⟨b, hb, h⟩ := h
    have hb' := C108_less hx hk hb
    cases b with
    | true =>
      have hlt := hb'.1 rfl
      simp only [if_true] at h
      have fl : firstWith k.quot l.entries = none :=
        firstWith_none _ fun e he => ((alr e he _ (.inl rfl)).trans hlt).ne
      rcases ihr (fun e he => ht e (.inr (.inr he))) ar h with ⟨i1, i2⟩ | ⟨e, i1, i2, i3, i4⟩
      · refine .inl ⟨?_, i2⟩
        simp only [Std.Tree.entries, List.mem_append, List.mem_cons]
        rintro e (he | rfl | he)
        · exact (alr e he _ (.inl rfl)).trans hlt
        · exact hlt
        · exact i1 e he
      · refine .inr ⟨e, i1, ?_, i3, ?_⟩
        · simp [Std.Tree.entries, i2]
        · simp only [Std.Tree.entries, firstWith_append, firstWith, fl, if_neg hlt.ne, i4]
          simp
    | false =>
      have hge : k.quot ≤ x.quot := le_of_not_gt fun c => by simpa using hb'.2 c
      simp only [Bool.false_eq_true, if_false] at h
      have fr : firstWith k.quot r.entries = none :=
        firstWith_none _ fun e he => (hge.trans_lt (axr e he)).ne'
      rcases ihl (fun e he => ht e (.inl he)) al h with ⟨i1, i2⟩ | ⟨e, i1, i2, i3, i4⟩
      · refine .inr ⟨(x, w), i2, by simp [Std.Tree.entries], hge, ?_⟩
        simp only [Std.Tree.entries, firstWith_append, firstWith, fr,
          firstWith_none _ fun e he => (i1 e he).ne]
        simp
      · refine .inr ⟨e, i1, ?_, i3, ?_⟩
        · simp [Std.Tree.entries, i2]
        · have hne : x.quot ≠ k.quot := (i3.trans_lt (alr e i2 _ (.inl rfl))).ne'
          simp only [Std.Tree.entries, firstWith_append, firstWith, fr, if_neg hne, i4]
          simp

/-- A whole program of insertions, by value. -/
theorem Std.Tree.insertAll_spec {t t' : Std.Tree} {kvs : List (Raw × ℤ)}
    (hk : ∀ e ∈ kvs, o.Orders e.1) (ht : ∀ e ∈ t.entries, o.Orders e.1)
    (ha : Ascending t.entries) (h : t.insertAll T o kvs ⇓ t') :
    Ascending t'.entries ∧ (∀ e ∈ t'.entries, o.Orders e.1) ∧
    (∀ e ∈ t'.entries, e ∈ t.entries ∨ e ∈ kvs) ∧
    (∀ q, firstWith q t'.entries = (firstWith q t.entries).or (firstWith q kvs)) := by
  induction kvs generalizing t with
  | nil =>
    simp only [Std.Tree.insertAll, pure_eq_ok] at h
    obtain ⟨rfl, -⟩ := h
    exact ⟨ha, ht, fun e he => .inl he, fun q => by simp [firstWith]⟩
  | cons e kvs ih =>
    obtain ⟨k, v⟩ := e
    simp only [Std.Tree.insertAll, bind_eq_clean] at h
    obtain ⟨t₁, h1, h⟩ := h
    have hk' : o.Orders k := hk (k, v) (List.mem_cons_self ..)
    obtain ⟨a1, a2, a3, a4⟩ := Std.Tree.insert_spec hk' ht ha h1
    have ho : ∀ e ∈ t₁.entries, o.Orders e.1 := by
      intro e he
      rcases a2 e he with he | rfl
      · exact ht e he
      · exact hk'
    obtain ⟨b1, b2, b3, b4⟩ := ih (fun e he => hk e (List.mem_cons_of_mem _ he)) ho a1 h
    refine ⟨b1, b2, fun e he => ?_, fun q => ?_⟩
    · rcases b3 e he with he | he
      · rcases a2 e he with he | rfl
        · exact .inl he
        · exact .inr (List.mem_cons_self ..)
      · exact .inr (List.mem_cons_of_mem _ he)
    · rw [b4, a4, Option.or_assoc]
      by_cases hq : k.quot = q <;> simp [firstWith, hq]

theorem Std.Tree.insert_finishes {P : Raw → Prop} {t : Std.Tree}
    (hP : ∀ x y, P x → P y → ∃ b, Std.lt T o x y ⇓ b) (hk : P k) (v : ℤ)
    (ht : ∀ e ∈ t.entries, P e.1) :
    ∃ t', t.insert T o k v ⇓ t' ∧ ∀ e ∈ t'.entries, P e.1 := by
  induction t with
  | leaf => exact ⟨.node .leaf k v .leaf, rfl, by simpa [Std.Tree.entries] using hk⟩
  | node l x w r ihl ihr =>
    simp only [Std.Tree.entries, List.mem_append, List.mem_cons] at ht
    have hx : P x := ht (x, w) (.inr (.inl rfl))
    obtain ⟨l', hl, ml⟩ := ihl fun e he => ht e (.inl he)
    obtain ⟨r', hr, mr⟩ := ihr fun e he => ht e (.inr (.inr he))
    obtain ⟨b, hb⟩ := hP k x hk hx
    obtain ⟨c, hc⟩ := hP x k hx hk
    simp only [Std.Tree.insert, hb, ok_bind_false]
    cases b with
    | true =>
      refine ⟨.node l' x w r, by simp [hl, ok_bind_false, pure_def], ?_⟩
      simp only [Std.Tree.entries, List.mem_append, List.mem_cons]
      rintro e (he | rfl | he)
      · exact ml e he
      · exact hx
      · exact ht e (.inr (.inr he))
    | false =>
      simp only [Bool.false_eq_true, if_false, hc, ok_bind_false]
      cases c with
      | true =>
        refine ⟨.node l x w r', by simp [hr, ok_bind_false, pure_def], ?_⟩
        simp only [Std.Tree.entries, List.mem_append, List.mem_cons]
        rintro e (he | rfl | he)
        · exact ht e (.inl he)
        · exact hx
        · exact mr e he
      | false =>
        refine ⟨.node l x w r, by simp [pure_def], ?_⟩
        simpa only [Std.Tree.entries, List.mem_append, List.mem_cons] using ht

theorem Std.Tree.insertAll_finishes {P : Raw → Prop} {kvs : List (Raw × ℤ)}
    (hP : ∀ x y, P x → P y → ∃ b, Std.lt T o x y ⇓ b) (hk : ∀ e ∈ kvs, P e.1) {t : Std.Tree}
    (ht : ∀ e ∈ t.entries, P e.1) :
    ∃ t', t.insertAll T o kvs ⇓ t' ∧ ∀ e ∈ t'.entries, P e.1 := by
  induction kvs generalizing t with
  | nil => exact ⟨t, rfl, ht⟩
  | cons e kvs ih =>
    obtain ⟨k, v⟩ := e
    obtain ⟨t₁, h1, m1⟩ := Std.Tree.insert_finishes hP (hk (k, v) (List.mem_cons_self ..)) v ht
    obtain ⟨t₂, h2, m2⟩ := ih (fun e he => hk e (List.mem_cons_of_mem _ he)) m1
    exact ⟨t₂, by simp only [Std.Tree.insertAll, h1, ok_bind_false, h2], m2⟩

theorem Std.Tree.find_finishes {P : Raw → Prop} {t : Std.Tree}
    (hP : ∀ x y, P x → P y → ∃ b, Std.lt T o x y ⇓ b) (hk : P k)
    (ht : ∀ e ∈ t.entries, P e.1) : ∃ r, t.find T o k ⇓ r := by
  have key : ∀ best : Option (Raw × ℤ), (∀ e, best = some e → P e.1) →
      ∃ r, t.lowerBound T o k best ⇓ r ∧ ∀ e, r = some e → P e.1 := by
    induction t with
    | leaf => exact fun best hb => ⟨best, rfl, hb⟩
    | node l x w r ihl ihr =>
      intro best hbest
      simp only [Std.Tree.entries, List.mem_append, List.mem_cons] at ht
      have hx : P x := ht (x, w) (.inr (.inl rfl))
      obtain ⟨b, hb⟩ := hP x k hx hk
      simp only [Std.Tree.lowerBound, hb, ok_bind_false]
      cases b with
      | true => simpa using ihr (fun e he => ht e (.inr (.inr he))) best hbest
      | false =>
        simpa using ihl (fun e he => ht e (.inl he)) (some (x, w)) (by rintro e ⟨⟩; exact hx)
  obtain ⟨r, hr, hm⟩ := key none (by simp)
  simp only [Std.Tree.find, hr, ok_bind_false]
  rcases r with _ | ⟨x, w⟩
  · exact ⟨none, rfl⟩
  · obtain ⟨b, hb⟩ := hP k x hk (hm _ rfl)
    refine ⟨if b then none else some w, ?_⟩
    simp only [hb, ok_bind_false]
    cases b <;> rfl

/-- `<` is false as soon as one of the fractions is undefined. -/
theorem Std.lt_undefined {x y : Raw} {b : Bool} (hu : x.den = 0 ∨ y.den = 0)
    (h : Std.lt T o x y ⇓ b) : b = false := by
  rw [Std.lt, Fraction.cmp_self] at h
  simpa using C16_undefined_comparisons (a := .ff x y) (op := .less) hu h

/-- So is `==`. -/
theorem Std.eq_undefined {x y : Raw} {b : Bool} (hu : x.den = 0 ∨ y.den = 0)
    (h : Std.eq T o x y ⇓ b) : b = false := by
  rw [Std.eq, Fraction.cmp_self] at h
  simpa using C16_undefined_comparisons (a := .ff x y) (op := .equalTo) hu h

/-- Search among entries with defined keys, by value. -/
theorem Std.findIn_spec {l : List (Raw × ℤ)} {r : Option ℤ} (hk : k.den ≠ 0)
    (hl : ∀ e ∈ l, e.1.den ≠ 0) (h : Std.findIn T o k l ⇓ r) : r = firstWith k.quot l := by
  induction l with
  | nil => simp only [Std.findIn, pure_eq_ok] at h; exact h.1.symm
  | cons e l ih =>
    obtain ⟨x, w⟩ := e
    simp only [Std.findIn, bind_eq_clean] at h
    obtain ⟨b, hb, h⟩ := h
    rw [Std.eq, Fraction.cmp_self] at hb
    have hx : x.den ≠ 0 := hl (x, w) (List.mem_cons_self ..)
    have hb' := C13_eq_exact (a := .ff x k) ⟨denotes_self hx, denotes_self hk⟩ hb
    change _ ↔ x.quot = k.quot at hb'
    cases b with
    | true =>
      simp only [if_true, pure_eq_ok] at h
      rw [firstWith, if_pos (hb'.1 rfl), h.1]
    | false =>
      simp only [Bool.false_eq_true, if_false] at h
      rw [firstWith, if_neg fun c => by simpa using hb'.2 c]
      exact ih (fun e he => hl e (List.mem_cons_of_mem _ he)) h

theorem Std.findIn_undefined {l : List (Raw × ℤ)} {r : Option ℤ} (hk : k.den = 0)
    (h : Std.findIn T o k l ⇓ r) : r = none := by
  induction l with
  | nil => simp only [Std.findIn, pure_eq_ok] at h; exact h.1.symm
  | cons e l ih =>
    obtain ⟨x, w⟩ := e
    simp only [Std.findIn, bind_eq_clean] at h
    obtain ⟨b, hb, h⟩ := h
    obtain rfl := Std.eq_undefined (.inr hk) hb
    exact ih h

theorem Std.lowerBound_undefined {t : Std.Tree} {best r : Option (Raw × ℤ)} (hk : k.den = 0)
    (h : t.lowerBound T o k best ⇓ r) : r = t.entries.head?.or best := by
  induction t generalizing best with
  | leaf => simp only [Std.Tree.lowerBound, pure_eq_ok] at h; simpa [Std.Tree.entries] using h.1.symm
  | node l x w r ihl ihr =>
    simp only [Std.Tree.lowerBound, bind_eq_clean] at h
    obtain ⟨b, hb, h⟩ := h
    obtain rfl := Std.lt_undefined (.inr hk) hb
    rw [ihl h, Std.Tree.entries, List.head?_append]
    simp

theorem Canonical.eq_of_quot {f g : Raw} (hf : Canonical f) (hg : Canonical g)
    (h : f.quot = g.quot) : f = g := by
  have hg' := denotes_self hg.1.ne'
  have e : (f.num : ℚ) / f.den = g.num / g.den := h
  exact hf.unique hg ⟨_, denotes_self hf.1.ne', e ▸ hg'⟩

/-- Entries of other buckets do not matter when all keys are canonical. -/
theorem firstWith_filter {l : List (Raw × ℤ)} {z : ℕ} (h : ℤ → BitVec z) (n : ℕ) (hk : Canonical k)
    (hl : ∀ e ∈ l, Canonical e.1) :
    firstWith k.quot (l.filter fun e => Std.bucket h n e.1 = Std.bucket h n k) =
      firstWith k.quot l := by
  induction l with
  | nil => rfl
  | cons e l ih =>
    obtain ⟨x, w⟩ := e
    have ih' := ih fun e he => hl e (List.mem_cons_of_mem _ he)
    by_cases hb : Std.bucket h n x = Std.bucket h n k
    · rw [List.filter_cons_of_pos (by simpa using hb)]
      simp only [firstWith, ih']
    · rw [List.filter_cons_of_neg (by simpa using hb), ih', firstWith, if_neg]
      intro c
      have hx : Canonical x := hl (x, w) (List.mem_cons_self ..)
      exact hb (hx.eq_of_quot hk c ▸ rfl)

theorem Std.tableInsertAll_spec {z : ℕ} {h : ℤ → BitVec z} {n : ℕ} {l l' kvs : List (Raw × ℤ)}
    (hk : ∀ e ∈ kvs, Canonical e.1) (hl : ∀ e ∈ l, Canonical e.1)
    (hd : l.Pairwise fun a b => a.1.quot ≠ b.1.quot)
    (hi : Std.tableInsertAll T o h n l kvs ⇓ l') :
    (l'.Pairwise fun a b => a.1.quot ≠ b.1.quot) ∧ (∀ e ∈ l', Canonical e.1) ∧
    (∀ q, firstWith q l' = (firstWith q l).or (firstWith q kvs)) := by
  induction kvs generalizing l with
  | nil =>
    simp only [Std.tableInsertAll, pure_eq_ok] at hi
    obtain ⟨rfl, -⟩ := hi
    exact ⟨hd, hl, fun q => by simp [firstWith]⟩
  | cons e kvs ih =>
    obtain ⟨k, v⟩ := e
    have hk' : Canonical k := hk (k, v) (List.mem_cons_self ..)
    have hks : ∀ e ∈ kvs, Canonical e.1 := fun e he => hk e (List.mem_cons_of_mem _ he)
    simp only [Std.tableInsertAll, Std.tableInsert, Std.tableFind, bind_eq_clean] at hi
    obtain ⟨l₁, ⟨r, hr, h1⟩, hi⟩ := hi
    have hr' := Std.findIn_spec hk'.1.ne'
      (fun e he => (hl e (List.mem_of_mem_filter he)).1.ne') hr
    rw [firstWith_filter h n hk' hl] at hr'
    cases r with
    | none =>
      simp only [pure_eq_ok] at h1
      obtain ⟨rfl, -⟩ := h1
      have hn := (firstWith_eq_none_iff _).1 hr'.symm
      obtain ⟨i1, i2, i3⟩ := ih hks (l := l ++ [(k, v)])
        (by simpa [or_imp, forall_and] using ⟨fun a b hab => hl (a, b) hab, hk'⟩)
        (by
          simp only [List.pairwise_append, List.pairwise_singleton, List.mem_singleton]
          exact ⟨hd, trivial, by rintro a ha _ rfl; exact hn a ha⟩) hi
      refine ⟨i1, i2, fun q => ?_⟩
      rw [i3, firstWith_append, Option.or_assoc]
      by_cases hq : k.quot = q <;> simp [firstWith, hq]
    | some w =>
      simp only [pure_eq_ok] at h1
      obtain ⟨rfl, -⟩ := h1
      obtain ⟨i1, i2, i3⟩ := ih hks hl hd hi
      refine ⟨i1, i2, fun q => ?_⟩
      rw [i3]
      by_cases hq : k.quot = q
      · subst hq
        rw [← hr']
        simp
      · simp [firstWith, hq]

end Ieme
