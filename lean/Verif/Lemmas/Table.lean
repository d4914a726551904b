import Verif.Lemmas.Containers
import Verif.Lemmas.HashInj

/-!
# Hash tables with arbitrary keys
-/

namespace Ieme

open Res

variable {T : IntTy} {o : Ops} {z : ℕ} {h : ℤ → BitVec z} {n : ℕ} {l l' kvs : List (Raw × ℤ)} {k : Raw}

/-- What insertions do to each bucket. -/
theorem Std.table_buckets (hk : ∀ e ∈ kvs, e.1.den ≠ 0) (hl : ∀ e ∈ l, e.1.den ≠ 0)
    (hi : Std.tableInsertAll T o h n l kvs ⇓ l') :
    (∀ e ∈ l', e ∈ l ∨ e ∈ kvs) ∧
    (l.Pairwise (fun a b => bucket h n a.1 = bucket h n b.1 → a.1.quot ≠ b.1.quot) →
      l'.Pairwise fun a b => bucket h n a.1 = bucket h n b.1 → a.1.quot ≠ b.1.quot) ∧
    ∀ q j, firstWith q (l'.filter fun e => bucket h n e.1 = j) =
      (firstWith q (l.filter fun e => bucket h n e.1 = j)).or
        (firstWith q (kvs.filter fun e => bucket h n e.1 = j)) := by
  induction kvs generalizing l with
  | nil =>
    simp only [Std.tableInsertAll, pure_eq_ok] at hi
    obtain ⟨rfl, -⟩ := hi
    exact ⟨fun e he => .inl he, id, fun q j => by simp [firstWith]⟩
  | cons e kvs ih =>
    obtain ⟨k, v⟩ := e
    have hk' : k.den ≠ 0 := hk (k, v) (List.mem_cons_self ..)
    have hks : ∀ e ∈ kvs, e.1.den ≠ 0 := fun e he => hk e (List.mem_cons_of_mem _ he)
    simp only [Std.tableInsertAll, Std.tableInsert, Std.tableFind, bind_eq_clean] at hi
    obtain ⟨l₁, ⟨r, hr, h1⟩, hi⟩ := hi
    have hr' := Std.findIn_spec hk' (fun e he => hl e (List.mem_of_mem_filter he)) hr
    cases r with
    | none =>
      simp only [pure_eq_ok] at h1
      obtain ⟨rfl, -⟩ := h1
      have hn := (firstWith_eq_none_iff _).1 hr'.symm
      obtain ⟨i1, i2, i3⟩ := ih hks (l := l ++ [(k, v)])
        (by simpa [or_imp, forall_and] using ⟨fun a b hab => hl (a, b) hab, hk'⟩) hi
      refine ⟨fun e he => ?_, fun hd => i2 ?_, fun q j => ?_⟩
      · rcases i1 e he with h | h
        · rcases List.mem_append.1 h with h | h
          · exact .inl h
          · exact .inr (by rw [List.mem_singleton.1 h]; exact List.mem_cons_self ..)
        · exact .inr (List.mem_cons_of_mem _ h)
      · simp only [List.pairwise_append, List.pairwise_singleton, List.mem_singleton]
        refine ⟨hd, trivial, ?_⟩
        rintro a ha _ rfl hb
        exact hn a (List.mem_filter.2 ⟨ha, by simpa using hb⟩)
      · rw [i3, List.filter_append, firstWith_append, Option.or_assoc]
        by_cases hb : bucket h n k = j <;> by_cases hq : k.quot = q <;>
          simp [firstWith, hq, hb]
    | some w =>
      simp only [pure_eq_ok] at h1
      obtain ⟨rfl, -⟩ := h1
      obtain ⟨i1, i2, i3⟩ := ih hks hl hi
      refine ⟨fun e he => (i1 e he).imp_right (List.mem_cons_of_mem _), i2, fun q j => ?_⟩
      rw [i3]
      by_cases hb : bucket h n k = j
      · subst hb
        by_cases hq : k.quot = q
        · subst hq
          rw [← hr']
          simp
        · simp [firstWith, hq]
      · simp [hb]

/-- A search finishes if the comparisons do. -/
theorem Std.findIn_finishes (hl : ∀ e ∈ l, ∃ b, Std.eq T o e.1 k ⇓ b) :
    ∃ r, Std.findIn T o k l ⇓ r := by
  induction l with
  | nil => exact ⟨none, rfl⟩
  | cons e l ih =>
    obtain ⟨x, w⟩ := e
    obtain ⟨b, hb⟩ := hl (x, w) (List.mem_cons_self ..)
    obtain ⟨r, hr⟩ := ih fun e he => hl e (List.mem_cons_of_mem _ he)
    simp only at hb
    rw [Std.findIn, hb, ok_bind_false]
    cases b with
    | true => exact ⟨some w, rfl⟩
    | false => exact ⟨r, hr⟩

theorem Std.tableInsertAll_finishes (h : ℤ → BitVec z) (n : ℕ)
    (hl : ∀ a ∈ l ++ kvs, ∀ b ∈ kvs, ∃ r, Std.eq T o a.1 b.1 ⇓ r) :
    ∃ l', Std.tableInsertAll T o h n l kvs ⇓ l' := by
  induction kvs generalizing l with
  | nil => exact ⟨l, rfl⟩
  | cons e kvs ih =>
    obtain ⟨k, v⟩ := e
    obtain ⟨r, hr⟩ := Std.findIn_finishes (l := l.filter fun e => bucket h n e.1 = bucket h n k)
      (T := T) (o := o) (k := k) fun e he => hl e (List.mem_append_left _ (List.mem_of_mem_filter he))
        (k, v) (List.mem_cons_self ..)
    rw [Std.tableInsertAll, Std.tableInsert, Std.tableFind, hr, ok_bind_false]
    cases r with
    | none =>
      simp only [pure_bind]
      exact ih (l := l ++ [(k, v)]) fun a ha b hb => hl a (by simpa using ha) b
        (List.mem_cons_of_mem _ hb)
    | some w =>
      simp only [pure_bind]
      exact ih (l := l) fun a ha b hb => hl a (by
        rcases List.mem_append.1 ha with h | h
        · exact List.mem_append_left _ h
        · exact List.mem_append_right _ (List.mem_cons_of_mem _ h)) b (List.mem_cons_of_mem _ hb)

theorem firstWith_ne_none {q : ℚ} {e : Raw × ℤ} (he : e ∈ l) (hq : e.1.quot = q) :
    firstWith q l ≠ none := fun hn => (firstWith_eq_none_iff _).1 hn e he hq

theorem bucket_big (h : ℤ → BitVec z) (k : Raw) :
    Std.bucket h (2 ^ z) k = (Hash.fraction h k).toNat :=
  Nat.mod_eq_of_lt (BitVec.isLt _)

end Ieme
