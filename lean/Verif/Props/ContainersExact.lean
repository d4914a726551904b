import Verif.Lemmas.Table
import Verif.Props.Containers

/-!
# C120: exactly when hash tables keyed by fractions work
-/

namespace Ieme

open Res IntTy

variable {T : IntTy} {o : Ops} {z : ℕ} {h : ℤ → BitVec z} {n : ℕ} {l kvs : List (Raw × ℤ)} {k : Raw}
  {r : Option ℤ}

/-- **C120** What a lookup gives after any insertions of defined keys into an empty
`std::unordered_map`: what the first inserted entry in the same bucket with a key of the same value
said. -/
theorem C120_table_find (hk : ∀ e ∈ kvs, e.1.den ≠ 0) (h0 : k.den ≠ 0)
    (hi : Std.tableInsertAll T o h n [] kvs ⇓ l) (hf : Std.tableFind T o h n k l ⇓ r) :
    r = firstWith k.quot (kvs.filter fun e => Std.bucket h n e.1 = Std.bucket h n k) := by
  obtain ⟨h1, -, h3⟩ := Std.table_buckets hk (by simp) hi
  have hl : ∀ e ∈ l, e.1.den ≠ 0 := fun e he => hk e ((h1 e he).resolve_left (by simp))
  rw [Std.findIn_spec h0 (fun e he => hl e (List.mem_of_mem_filter he)) hf, h3]
  simp [firstWith]

/-- **C120** No two keys of the table have the same value exactly when inserted keys of the same
value are in the same bucket. -/
theorem C120_table_distinct_iff (hk : ∀ e ∈ kvs, e.1.den ≠ 0)
    (hi : Std.tableInsertAll T o h n [] kvs ⇓ l) :
    (l.Pairwise fun a b => a.1.quot ≠ b.1.quot) ↔
      ∀ a ∈ kvs, ∀ b ∈ kvs, a.1.quot = b.1.quot → Std.bucket h n a.1 = Std.bucket h n b.1 := by
  obtain ⟨h1, h2, h3⟩ := Std.table_buckets hk (by simp) hi
  have h1 : ∀ e ∈ l, e ∈ kvs := fun e he => (h1 e he).resolve_left (by simp)
  constructor
  · intro hd a ha b hb hab
    by_contra hne
    have key : ∀ a ∈ kvs, ∃ e ∈ l, Std.bucket h n e.1 = Std.bucket h n a.1 ∧
        e.1.quot = a.1.quot := by
      intro a ha
      have := h3 a.1.quot (Std.bucket h n a.1)
      have hs := firstWith_ne_none (l := kvs.filter fun e => Std.bucket h n e.1 = Std.bucket h n a.1)
        (List.mem_filter.2 ⟨ha, by simp⟩) rfl
      simp only [List.filter_nil, firstWith, Option.none_or] at this
      rw [← this, Ne, firstWith_eq_none_iff] at hs
      push Not at hs
      obtain ⟨e, he, hq⟩ := hs
      exact ⟨e, List.mem_of_mem_filter he, by simpa using (List.mem_filter.1 he).2, hq⟩
    obtain ⟨e1, m1, b1, q1⟩ := key a ha
    obtain ⟨e2, m2, b2, q2⟩ := key b hb
    have hne' : e1 ≠ e2 := fun e => hne (by rw [← b1, ← b2, e])
    haveI : Std.Symm fun a b : Raw × ℤ => a.1.quot ≠ b.1.quot := ⟨fun _ _ h => h.symm⟩
    exact hd.forall m1 m2 hne' (by rw [q1, q2, hab])
  · intro hb
    exact (h2 .nil).imp_of_mem fun ha hb' h => fun e => h (hb _ (h1 _ ha) _ (h1 _ hb') e) e

/-- **C120** Whatever `std::hash` of the representation and the number of buckets, the table keeps
one entry for each value, exactly when inserted keys of the same value have the same parts. -/
theorem C120_table_all_iff {z : ℕ} (hz : 3 ≤ z) (hk : ∀ e ∈ kvs, e.1.den ≠ 0)
    (hc : ∀ a ∈ kvs, ∀ b ∈ kvs, ∃ r, Std.eq T o a.1 b.1 ⇓ r) :
    (∀ (h : ℤ → BitVec z) n, 0 < n → ∃ l, Std.tableInsertAll T o h n [] kvs ⇓ l ∧
      l.Pairwise fun a b => a.1.quot ≠ b.1.quot) ↔
      ∀ a ∈ kvs, ∀ b ∈ kvs, a.1.quot = b.1.quot → a.1 = b.1 := by
  constructor
  · intro hall a ha b hb hab
    refine Hash.fraction_inj hz fun h => ?_
    obtain ⟨l, hi, hd⟩ := hall h (2 ^ z) (by positivity)
    have := (C120_table_distinct_iff hk hi).1 hd a ha b hb hab
    rw [bucket_big, bucket_big] at this
    exact BitVec.eq_of_toNat_eq this
  · intro hall h n _
    obtain ⟨l, hi⟩ := Std.tableInsertAll_finishes (l := []) (kvs := kvs) (T := T) (o := o) h n
      (by simpa using hc)
    exact ⟨l, hi, (C120_table_distinct_iff hk hi).2 fun a ha b hb hab => by rw [hall a ha b hb hab]⟩

/-- Keys that are not canonical but of one form for each value: `2/4`, minus three over minus nine and `2/4` again,
under the hash of libstdc++ and 13 buckets; and `1/2`, `2/4`, which share a bucket of one but not
of 13. -/
example :
    let kvs : List (Raw × ℤ) := [(⟨2, 4⟩, 1), (⟨-3, -9⟩, 2), (⟨2, 4⟩, 3)]
    (∀ e ∈ kvs, e.1.den ≠ 0) ∧
    (∀ a ∈ kvs, ∀ b ∈ kvs, ∃ r, Std.eq i32 .defaults a.1 b.1 ⇓ r) ∧
    (∀ a ∈ kvs, ∀ b ∈ kvs, a.1.quot = b.1.quot → a.1 = b.1) ∧
    Std.tableInsertAll i32 .defaults (Hash.stdHash 64) 13 [] kvs ⇓ [(⟨2, 4⟩, 1), (⟨-3, -9⟩, 2)] ∧
    Std.tableFind i32 .defaults (Hash.stdHash 64) 13 ⟨2, 4⟩ [(⟨2, 4⟩, 1), (⟨-3, -9⟩, 2)] ⇓ some 1 := by
  refine ⟨by decide, ?_, ?_, by decide, by decide⟩
  · have key : ∀ x y : Raw, x ∈ [⟨2, 4⟩, ⟨-3, -9⟩] → y ∈ [⟨2, 4⟩, ⟨-3, -9⟩] →
        ∃ r, Std.eq i32 .defaults x y ⇓ r := by
      intro x y hx hy
      simp only [List.mem_cons, List.not_mem_nil, or_false] at hx hy
      rcases hx with rfl | rfl <;> rcases hy with rfl | rfl <;>
        first | exact ⟨true, by decide⟩ | exact ⟨false, by decide⟩
    intro a ha b hb
    exact key a.1 b.1 (by simp only [List.mem_cons, List.not_mem_nil, or_false] at ha ⊢
                          rcases ha with rfl | rfl | rfl <;> simp)
      (by simp only [List.mem_cons, List.not_mem_nil, or_false] at hb ⊢
          rcases hb with rfl | rfl | rfl <;> simp)
  · intro a ha b hb hab
    simp only [List.mem_cons, List.not_mem_nil, or_false] at ha hb
    rcases ha with rfl | rfl | rfl <;> rcases hb with rfl | rfl | rfl <;>
      first | rfl | (norm_num [Raw.quot] at hab)

example : Std.bucket (Hash.stdHash 64) 13 ⟨1, 2⟩ ≠ Std.bucket (Hash.stdHash 64) 13 ⟨2, 4⟩ ∧
    Std.tableInsertAll i32 .defaults (Hash.stdHash 64) 1 [] [(⟨1, 2⟩, 1), (⟨2, 4⟩, 2)] ⇓ [(⟨1, 2⟩, 1)] := by
  decide

end Ieme
