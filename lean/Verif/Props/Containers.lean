import Verif.Lemmas.Containers
import Verif.Props.Arith

/-!
# Maps with fractions as keys: property C120

`firstWith q l` is what the first entry of `l` whose key has the value `q` maps it to.
-/

namespace Ieme

open Res IntTy

variable {T : IntTy} {o : Ops} {k : Raw} {v w : ℤ} {t t' : Std.Tree} {r : Option ℤ}
  {z : ℕ} {h : ℤ → BitVec z} {n : ℕ} {l l' kvs : List (Raw × ℤ)}

/-- **C120** Inserting a key that the policy orders into a `std::map` of such keys keeps the keys
in ascending order of value, keeps all entries, and adds the new one exactly when no key has the
same value. -/
theorem C120_map_insert (hk : o.Orders k) (ht : ∀ e ∈ t.entries, o.Orders e.1)
    (ha : Ascending t.entries) (hi : t.insert T o k v ⇓ t') :
    Ascending t'.entries ∧ ∀ e, e ∈ t'.entries ↔
      e ∈ t.entries ∨ e = (k, v) ∧ ∀ e' ∈ t.entries, e'.1.quot ≠ k.quot := by
  obtain ⟨h1, h2, h3, h4⟩ := Std.Tree.insert_spec hk ht ha hi
  refine ⟨h1, fun e => ⟨fun he => ?_, ?_⟩⟩
  · rcases h2 e he with hm | rfl
    · exact .inl hm
    · by_cases hn : ∀ e' ∈ t.entries, e'.1.quot ≠ k.quot
      · exact .inr ⟨rfl, hn⟩
      · push Not at hn
        obtain ⟨e', hm, hx⟩ := hn
        exact .inl (h1.inj e' (h3 _ hm) _ he hx ▸ hm)
  · rintro (hm | ⟨rfl, hn⟩)
    · exact h3 e hm
    · have h5 := h4 k.quot
      rw [firstWith_none _ hn, if_pos rfl] at h5
      by_contra hc
      rw [firstWith_none t'.entries] at h5
      · simp at h5
      · intro e he
        rcases h2 e he with hm | rfl
        · exact hn e hm
        · exact absurd he hc

/-- A map with one third and one half: minus one quarter becomes the first entry, and two quarters
are not inserted. -/
example :
    let t : Std.Tree := .node .leaf ⟨1, 3⟩ 7 (.node .leaf ⟨1, 2⟩ 8 .leaf)
    (∀ e ∈ t.entries, Ops.defaults.Orders e.1) ∧ Ascending t.entries ∧
    Ops.defaults.Orders ⟨1, -4⟩ ∧
    t.insert i32 .defaults ⟨1, -4⟩ 9 ⇓
      .node (.node .leaf ⟨1, -4⟩ 9 .leaf) ⟨1, 3⟩ 7 (.node .leaf ⟨1, 2⟩ 8 .leaf) ∧
    t.insert i32 .defaults ⟨2, 4⟩ 9 ⇓ t := by
  refine ⟨?_, ?_, .inr ⟨trivial, by decide⟩, by decide, by decide⟩
  · simp only [Std.Tree.entries, List.nil_append, List.mem_cons, List.not_mem_nil, or_false,
      forall_eq_or_imp, forall_eq]
    exact ⟨.inl (by decide), .inl (by decide)⟩
  · norm_num [Std.Tree.entries, Ascending, Raw.quot]

/-- **C120** Lookup in such a map finds the entry whose key has the same value, if there is one. -/
theorem C120_map_find (hk : o.Orders k) (ht : ∀ e ∈ t.entries, o.Orders e.1)
    (ha : Ascending t.entries) (hf : t.find T o k ⇓ r) : r = firstWith k.quot t.entries := by
  simp only [Std.Tree.find, bind_eq_clean] at hf
  obtain ⟨b, hb, hf⟩ := hf
  rcases Std.Tree.lowerBound_spec hk ht ha hb with ⟨h1, rfl⟩ | ⟨⟨x, w⟩, rfl, h1, h2, h3⟩
  · simp only [pure_eq_ok] at hf
    rw [← hf.1, firstWith_none _ fun e he => (h1 e he).ne]
  · simp only [bind_eq_clean] at hf
    obtain ⟨c, hc, hf⟩ := hf
    have hc' := C108_less hk (ht _ h1) hc
    rw [h3]
    cases c with
    | true =>
      simp only [if_true, pure_eq_ok] at hf
      rw [← hf.1, if_neg (hc'.1 rfl).ne']
    | false =>
      simp only [Bool.false_eq_true, if_false, pure_eq_ok] at hf
      rw [← hf.1, if_pos (le_antisymm (le_of_not_gt fun c => by simpa using hc'.2 c) h2)]

example :
    let t : Std.Tree := .node .leaf ⟨1, 3⟩ 7 (.node .leaf ⟨1, 2⟩ 8 .leaf)
    t.find i32 .defaults ⟨-2, -4⟩ ⇓ some 8 ∧ t.find i32 .defaults ⟨2, 5⟩ ⇓ none ∧
    firstWith (Raw.quot ⟨-2, -4⟩) t.entries = some 8 := by
  refine ⟨by decide, by decide, ?_⟩
  norm_num [Std.Tree.entries, firstWith, Raw.quot]

/-- **C120** A program that inserts entries one after the other into an empty `std::map`: the keys
end in strictly ascending order of value, and looking up a key gives what the first inserted entry
with a key of the same value said. -/
theorem C120_map_program (hk : ∀ e ∈ kvs, o.Orders e.1)
    (hi : Std.Tree.leaf.insertAll T o kvs ⇓ t) :
    Ascending t.entries ∧
    ∀ k r, o.Orders k → t.find T o k ⇓ r → r = firstWith k.quot kvs := by
  obtain ⟨h1, h2, -, h4⟩ := Std.Tree.insertAll_spec hk (by simp [Std.Tree.entries])
    (by simp [Std.Tree.entries, Ascending]) hi
  refine ⟨h1, fun k r hk hf => ?_⟩
  rw [C120_map_find hk h2 h1 hf, h4]
  simp [Std.Tree.entries, firstWith]

/-- **C120** All of it finishes, on any policy and also with undefined keys, when the parts of the
keys are at most `B` in absolute value and `B * B` is representable. -/
theorem C120_map_finishes {B : ℕ} (hB : (B * B : ℤ) ≤ T.max)
    (hk : ∀ e ∈ kvs, e.1.InRange T ∧ e.1.AbsLe B) :
    ∃ t, Std.Tree.leaf.insertAll T o kvs ⇓ t ∧
      ∀ k : Raw, k.InRange T → k.AbsLe B → ∃ r, t.find T o k ⇓ r := by
  have hP : ∀ x y : Raw, x.InRange T ∧ x.AbsLe B → y.InRange T ∧ y.AbsLe B →
      ∃ b, Std.lt T o x y ⇓ b := by
    rintro x y ⟨hx, bx⟩ ⟨hy, by'⟩
    rw [Std.lt, Fraction.cmp_self]
    exact C07_small_cmp_finishes (a := .ff x y) .less ⟨hx, hy⟩ ⟨bx, by'⟩ hB
  obtain ⟨t, ht, hm⟩ := Std.Tree.insertAll_finishes hP hk (t := .leaf)
    (by simp [Std.Tree.entries])
  exact ⟨t, ht, fun k h1 h2 => Std.Tree.find_finishes hP ⟨h1, h2⟩ hm⟩

/-- Four insertions of which one is a duplicate under another name. -/
example :
    let kvs : List (Raw × ℤ) := [(⟨1, 2⟩, 1), (⟨1, -3⟩, 2), (⟨-2, -4⟩, 3), (⟨5, 7⟩, 4)]
    (∀ e ∈ kvs, Ops.defaults.Orders e.1) ∧ (∀ e ∈ kvs, e.1.InRange i32 ∧ e.1.AbsLe 46340) ∧
    (46340 * 46340 : ℤ) ≤ i32.max ∧
    Std.Tree.leaf.insertAll i32 .defaults kvs ⇓
      .node (.node .leaf ⟨1, -3⟩ 2 .leaf) ⟨1, 2⟩ 1 (.node .leaf ⟨5, 7⟩ 4 .leaf) ∧
    firstWith (1/2) kvs = some 1 := by
  refine ⟨?_, ?_, by decide, by decide, by norm_num [firstWith, Raw.quot]⟩ <;>
    simp only [List.mem_cons, List.not_mem_nil, or_false, forall_eq_or_imp, forall_eq]
  · exact ⟨.inl (by decide), .inr ⟨trivial, by decide⟩, .inr ⟨trivial, by decide⟩,
      .inl (by decide)⟩
  · simp only [Raw.InRange, Raw.AbsLe]; decide

/-- **C120, the order fails for undefined keys.**  With an undefined key at the root no later key
can be inserted, and a map with only that entry finds it under every key. An undefined key is found
in every map with entries (the first one is returned), and is therefore never inserted into
one. All policies and representations. -/
theorem C120_map_undefined {u : Raw} (hu : u.den = 0) :
    (∀ a b : Std.Tree, (Std.Tree.node a u w b).insert T o k v ⇓ t' → t' = .node a u w b) ∧
    ((Std.Tree.node .leaf u w .leaf).find T o k ⇓ r → r = some w) ∧
    (t.find T o u ⇓ r → r = t.entries.head?.map (·.2)) ∧
    (t ≠ .leaf → t.insert T o u v ⇓ t' → t' = t) := by
  refine ⟨fun a b hi => ?_, fun hf => ?_, fun hf => ?_, fun hn hi => ?_⟩
  · simp only [Std.Tree.insert, bind_eq_clean] at hi
    obtain ⟨b, hb, hi⟩ := hi
    obtain rfl := Std.lt_undefined (.inr hu) hb
    simp only [Bool.false_eq_true, if_false, bind_eq_clean] at hi
    obtain ⟨c, hc, hi⟩ := hi
    obtain rfl := Std.lt_undefined (.inl hu) hc
    simp only [Bool.false_eq_true, if_false, pure_eq_ok] at hi
    exact hi.1.symm
  · simp only [Std.Tree.find, Std.Tree.lowerBound, bind_eq_clean] at hf
    obtain ⟨x, ⟨b, hb, hx⟩, hf⟩ := hf
    obtain rfl := Std.lt_undefined (.inl hu) hb
    simp only [Bool.false_eq_true, if_false, pure_eq_ok] at hx
    obtain ⟨rfl, -⟩ := hx
    simp only [bind_eq_clean] at hf
    obtain ⟨c, hc, hf⟩ := hf
    obtain rfl := Std.lt_undefined (.inr hu) hc
    simp only [Bool.false_eq_true, if_false, pure_eq_ok] at hf
    exact hf.1.symm
  · simp only [Std.Tree.find, bind_eq_clean] at hf
    obtain ⟨x, hx, hf⟩ := hf
    have := Std.lowerBound_undefined hu hx
    rw [Option.or_none] at this
    rw [← this]
    rcases x with _ | ⟨x, w⟩
    · simp only [pure_eq_ok] at hf
      exact hf.1.symm
    · simp only [bind_eq_clean] at hf
      obtain ⟨c, hc, hf⟩ := hf
      obtain rfl := Std.lt_undefined (.inl hu) hc
      simp only [Bool.false_eq_true, if_false, pure_eq_ok] at hf
      exact hf.1.symm
  · cases t with
    | leaf => exact absurd rfl hn
    | node l x w r =>
      simp only [Std.Tree.insert, bind_eq_clean] at hi
      obtain ⟨b, hb, hi⟩ := hi
      obtain rfl := Std.lt_undefined (.inl hu) hb
      simp only [Bool.false_eq_true, if_false, bind_eq_clean] at hi
      obtain ⟨c, hc, hi⟩ := hi
      obtain rfl := Std.lt_undefined (.inr hu) hc
      simp only [Bool.false_eq_true, if_false, pure_eq_ok] at hi
      exact hi.1.symm

/-- Three insertions of which the first is of `0/0`: the others are lost, and every key gives
the value of `0/0`. -/
example :
    Std.Tree.leaf.insertAll i32 .defaults [(⟨0, 0⟩, 1), (⟨1, 2⟩, 2), (⟨3, 4⟩, 3)] ⇓
      .node .leaf ⟨0, 0⟩ 1 .leaf ∧
    (Std.Tree.node .leaf ⟨0, 0⟩ 1 .leaf).find i32 .defaults ⟨9, 7⟩ ⇓ some 1 ∧
    (Std.Tree.node .leaf ⟨1, 3⟩ 7 (.node .leaf ⟨1, 2⟩ 8 .leaf)).find i32 .defaults ⟨5, 0⟩ ⇓ some 7 ∧
    (Std.Tree.node .leaf ⟨1, 3⟩ 7 .leaf).insert i32 .defaults ⟨5, 0⟩ 4 ⇓ .node .leaf ⟨1, 3⟩ 7 .leaf := by
  decide

/-- **C120, partial.**  A program that inserts entries one after the other into an empty
`std::unordered_map`.  Full claim: no two keys are equal, and looking up a key gives what the first
inserted entry with an equal key said.  Proved for keys in lowest terms with positive denominators,
for every policy, every `std::hash<Rep>` and every number of buckets; false in general, see
`C120_table_misses`. -/
theorem C120_table_program_partial (hk : ∀ e ∈ kvs, Canonical e.1)
    (hi : Std.tableInsertAll T o h n [] kvs ⇓ l) :
    (l.Pairwise fun a b => a.1.quot ≠ b.1.quot) ∧
    ∀ k r, Canonical k → Std.tableFind T o h n k l ⇓ r → r = firstWith k.quot kvs := by
  obtain ⟨h1, h2, h3⟩ := Std.tableInsertAll_spec hk (by simp) .nil hi
  refine ⟨h1, fun k r hk hf => ?_⟩
  rw [Std.findIn_spec hk.1.ne' (fun e he => (h2 e (List.mem_of_mem_filter he)).1.ne') hf,
    firstWith_filter h n hk h2, h3]
  simp [firstWith]

example :
    let kvs : List (Raw × ℤ) := [(⟨1, 2⟩, 1), (⟨-1, 3⟩, 2), (⟨1, 2⟩, 3), (⟨5, 7⟩, 4)]
    (∀ e ∈ kvs, Canonical e.1) ∧
    Std.tableInsertAll i32 .defaults (Hash.stdHash 64) 13 [] kvs ⇓
      [(⟨1, 2⟩, 1), (⟨-1, 3⟩, 2), (⟨5, 7⟩, 4)] ∧
    Std.tableFind i32 .defaults (Hash.stdHash 64) 13 ⟨-1, 3⟩
      [(⟨1, 2⟩, 1), (⟨-1, 3⟩, 2), (⟨5, 7⟩, 4)] ⇓ some 2 := by
  refine ⟨?_, by decide, by decide⟩
  simp only [List.mem_cons, List.not_mem_nil, or_false, forall_eq_or_imp, forall_eq, Canonical]
  decide

/-- **C120, refuted in general.**  An entry is not found under a key of another bucket, equal or
not; so under the default policy, the hash of libstdc++ and 13 buckets, `2/4` is not found after
`1/2` was inserted although `1/2 == 2/4`, and inserting both leaves two equal keys. -/
theorem C120_table_misses :
    (∀ x : Raw, Std.bucket h n x ≠ Std.bucket h n k →
      Std.tableFind T o h n k [(x, v)] ⇓ none) ∧
    Std.eq i32 .defaults ⟨1, 2⟩ ⟨2, 4⟩ ⇓ true ∧
    Std.tableFind i32 .defaults (Hash.stdHash 64) 13 ⟨2, 4⟩ [(⟨1, 2⟩, 1)] ⇓ none ∧
    Std.tableInsertAll i32 .defaults (Hash.stdHash 64) 13 [] [(⟨1, 2⟩, 1), (⟨2, 4⟩, 2)] ⇓
      [(⟨1, 2⟩, 1), (⟨2, 4⟩, 2)] := by
  refine ⟨fun x hx => ?_, by decide, by decide, by decide⟩
  simp [Std.tableFind, hx, Std.findIn, pure_def]

/-- **C120** An undefined key is never found in a `std::unordered_map`, not even after it was
inserted, so that every insertion of it adds an entry. -/
theorem C120_table_undefined {u : Raw} (hu : u.den = 0) :
    (Std.tableFind T o h n u l ⇓ r → r = none) ∧
    (Std.tableInsert T o h n u v l ⇓ l' → l' = l ++ [(u, v)]) := by
  refine ⟨Std.findIn_undefined hu, fun hi => ?_⟩
  simp only [Std.tableInsert, Std.tableFind, bind_eq_clean] at hi
  obtain ⟨r, hr, hi⟩ := hi
  obtain rfl := Std.findIn_undefined hu hr
  simp only [pure_eq_ok] at hi
  exact hi.1.symm

example : Std.tableInsertAll i32 .defaults (Hash.stdHash 64) 13 [] [(⟨0, 0⟩, 1), (⟨0, 0⟩, 2)] ⇓
    [(⟨0, 0⟩, 1), (⟨0, 0⟩, 2)] := by decide

end Ieme
