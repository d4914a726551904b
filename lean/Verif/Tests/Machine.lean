import Verif.Lemmas.Machine
import Mathlib.Tactic.Ring

/-!
# The integer model against bit vectors

Not a property of the library but a check of `Verif/Model/Machine.lean`: for every integer
type and all operands the model's operators agree with the bit-vector operations of Lean's
core library, and the model reports undefined behaviour exactly where those overflow.
-/

namespace Ieme.IntTy

variable {T : IntTy}

/-- The value of a bit pattern of the type. -/
def ofBits (T : IntTy) (b : BitVec T.bits) : ℤ := if T.signed then b.toInt else b.toNat

theorem ofBits_ofInt (v : ℤ) : T.ofBits (BitVec.ofInt T.bits v) = T.wrap v := by
  unfold ofBits wrap
  split
  · rw [BitVec.toInt_ofInt]
  · rw [BitVec.toNat_ofInt, Int.toNat_of_nonneg (Int.emod_nonneg _ (by positivity))]

theorem ofInt_ofBits (b : BitVec T.bits) : BitVec.ofInt T.bits (T.ofBits b) = b := by
  unfold ofBits
  split
  · exact BitVec.ofInt_toInt
  · rw [BitVec.ofInt_natCast, BitVec.ofNat_toNat, BitVec.setWidth_eq]

/-- The values of a type are those of its bit patterns. -/
theorem inRange_iff (v : ℤ) : T.InRange v ↔ ∃ b, T.ofBits b = v := by
  constructor
  · exact fun h => ⟨BitVec.ofInt T.bits v, by rw [ofBits_ofInt, wrap_of_inRange h]⟩
  · rintro ⟨b, rfl⟩
    rw [← ofInt_ofBits b, ofBits_ofInt]
    exact wrap_inRange _

/-- Different patterns have different values. -/
theorem ofBits_injective : Function.Injective T.ofBits := fun a b h => by
  rw [← ofInt_ofBits a, h, ofInt_ofBits]

theorem arith_bits (v : ℤ) : T.arith v =
    if T.signed ∧ ¬ T.InRange v then .fault .overflow
    else .ok (T.ofBits (BitVec.ofInt T.bits v)) (decide (¬ T.InRange v)) := by
  unfold arith
  rw [ofBits_ofInt]
  by_cases h : T.InRange v
  · simp [h, wrap_of_inRange h]
  · by_cases hs : T.signed <;> simp [h, hs]

theorem inRange_signed (hs : T.signed = true) (v : ℤ) :
    T.InRange v ↔ -2 ^ (T.bits - 1) ≤ v ∧ v < 2 ^ (T.bits - 1) := by
  unfold InRange min max
  rw [hs]
  push_cast
  simp only [if_true]
  omega

theorem inRange_unsigned (hs : T.signed = false) (v : ℤ) :
    T.InRange v ↔ 0 ≤ v ∧ v < 2 ^ T.bits := by
  unfold InRange min max
  rw [hs]
  push_cast
  omega

/-- `x + y` of a signed type. -/
theorem add_signed (hs : T.signed = true) (x y : BitVec T.bits) : T.add x.toInt y.toInt =
    if x.saddOverflow y then .fault .overflow else .ok (x + y).toInt false := by
  have e : T.InRange (x.toInt + y.toInt) ↔ ¬ x.saddOverflow y = true := by
    rw [inRange_signed hs]; simp [BitVec.saddOverflow]; omega
  by_cases h : x.saddOverflow y = true
  · rw [add, arith, if_neg (by tauto), if_pos hs, if_pos h]
  · rw [add, arith, if_pos (e.2 h), if_neg h, BitVec.toInt_add_of_not_saddOverflow h]

/-- `x - y` of a signed type. -/
theorem sub_signed (hs : T.signed = true) (x y : BitVec T.bits) : T.sub x.toInt y.toInt =
    if x.ssubOverflow y then .fault .overflow else .ok (x - y).toInt false := by
  have e : T.InRange (x.toInt - y.toInt) ↔ ¬ x.ssubOverflow y = true := by
    rw [inRange_signed hs]; simp [BitVec.ssubOverflow]; omega
  by_cases h : x.ssubOverflow y = true
  · rw [sub, arith, if_neg (by tauto), if_pos hs, if_pos h]
  · rw [sub, arith, if_pos (e.2 h), if_neg h, BitVec.toInt_sub_of_not_ssubOverflow h]

/-- `x * y` of a signed type. -/
theorem mul_signed (hs : T.signed = true) (x y : BitVec T.bits) : T.mul x.toInt y.toInt =
    if x.smulOverflow y then .fault .overflow else .ok (x * y).toInt false := by
  have e : T.InRange (x.toInt * y.toInt) ↔ ¬ x.smulOverflow y = true := by
    rw [inRange_signed hs]; simp [BitVec.smulOverflow]; omega
  by_cases h : x.smulOverflow y = true
  · rw [mul, arith, if_neg (by tauto), if_pos hs, if_pos h]
  · rw [mul, arith, if_pos (e.2 h), if_neg h, BitVec.toInt_mul_of_not_smulOverflow h]

/-- `-x` of a signed type. -/
theorem neg_signed (hs : T.signed = true) (x : BitVec T.bits) : T.neg x.toInt =
    if x.negOverflow then .fault .overflow else .ok (-x).toInt false := by
  have hb := (inRange_signed hs x.toInt).1 (by
    have := (inRange_iff (T := T) (T.ofBits x)).2 ⟨x, rfl⟩
    rwa [ofBits, if_pos hs] at this)
  have e : T.InRange (-x.toInt) ↔ ¬ x.negOverflow = true := by
    rw [inRange_signed hs]; simp [BitVec.negOverflow]; omega
  by_cases h : x.negOverflow = true
  · rw [neg, arith, if_neg (by tauto), if_pos hs, if_pos h]
  · rw [neg, arith, if_pos (e.2 h), if_neg h, BitVec.toInt_neg_of_not_negOverflow h]

/-- `x / y` and `x % y` of a signed type. -/
theorem div_signed (hs : T.signed = true) (x y : BitVec T.bits) :
    (T.div x.toInt y.toInt =
      if y = 0 then .fault .divByZero
      else if x = BitVec.intMin _ ∧ y = -1 then .fault .overflow
      else .ok (x.sdiv y).toInt false) ∧
    (T.mod x.toInt y.toInt =
      if y = 0 then .fault .divByZero
      else if x = BitVec.intMin _ ∧ y = -1 then .fault .overflow
      else .ok (x.srem y).toInt false) := by
  have hy : y.toInt = 0 ↔ y = 0 := by
    rw [← BitVec.toInt_inj]; simp
  have e : T.InRange (x.toInt.tdiv y.toInt) ↔ ¬ (x = BitVec.intMin _ ∧ y = -1) := by
    have hw : 0 < T.bits := T.bits_pos
    constructor
    · rintro h ⟨rfl, rfl⟩
      rw [inRange_signed hs] at h
      have h1 : (-1 : BitVec T.bits).toInt = -1 := by
        rw [show (-1 : BitVec T.bits) = -1#T.bits from rfl, BitVec.neg_one_eq_allOnes,
          BitVec.toInt_allOnes, if_pos hw]
      rw [h1, BitVec.toInt_intMin_of_pos hw] at h
      simp at h
    · intro h
      have h' : x ≠ BitVec.intMin _ ∨ y ≠ -1 := by tauto
      rw [← BitVec.toInt_sdiv_of_ne_or_ne x y h']
      have := (inRange_iff (T := T) (T.ofBits (x.sdiv y))).2 ⟨_, rfl⟩
      rwa [ofBits, if_pos hs] at this
  by_cases h0 : y = 0
  · rw [div, mod, if_pos (hy.2 h0), if_pos (hy.2 h0), if_pos h0, if_pos h0]; exact ⟨rfl, rfl⟩
  rw [div, mod, if_neg (mt hy.1 h0), if_neg (mt hy.1 h0), if_neg h0, if_neg h0]
  by_cases h : x = BitVec.intMin _ ∧ y = -1
  · have he : ¬ T.InRange (x.toInt.tdiv y.toInt) := fun h' => e.1 h' h
    rw [if_neg he, if_neg he, if_pos h, if_pos h]; exact ⟨rfl, rfl⟩
  · rw [if_pos (e.2 h), if_pos (e.2 h), if_neg h, if_neg h, BitVec.toInt_srem,
      BitVec.toInt_sdiv_of_ne_or_ne x y (by tauto)]
    exact ⟨rfl, rfl⟩

/-- `x + y`, `x - y`, `x * y` and `-x` of an unsigned type. -/
theorem unsigned_bits (hs : T.signed = false) (x y : BitVec T.bits) :
    (∃ w, T.add x.toNat y.toNat = .ok (x + y).toNat w ∧ (w = true ↔ x.uaddOverflow y = true)) ∧
    (∃ w, T.sub x.toNat y.toNat = .ok (x - y).toNat w ∧ (w = true ↔ x.usubOverflow y = true)) ∧
    (∃ w, T.mul x.toNat y.toNat = .ok (x * y).toNat w ∧ (w = true ↔ x.umulOverflow y = true)) ∧
    (∃ w, T.neg x.toNat = .ok (-x).toNat w ∧ (w = true ↔ x ≠ 0)) := by
  have key : ∀ (v : ℤ) (z : BitVec T.bits), BitVec.ofInt T.bits v = z → T.arith v =
      .ok z.toNat (decide (¬ (0 ≤ v ∧ v < 2 ^ T.bits))) := by
    rintro v _ rfl
    rw [arith_bits, if_neg (by simp [hs]), ofBits, if_neg (by simp [hs])]
    simp only [inRange_unsigned hs]
  have ho : ∀ z : BitVec T.bits, BitVec.ofInt T.bits (z.toNat : ℤ) = z := fun z => by
    rw [BitVec.ofInt_natCast, BitVec.ofNat_toNat, BitVec.setWidth_eq]
  have hx := x.isLt
  have hy := y.isLt
  have p0 : ((2 ^ T.bits : ℕ) : ℤ) = 2 ^ T.bits := by push_cast; rfl
  refine ⟨⟨_, key _ _ (by rw [BitVec.ofInt_add, ho, ho]), ?_⟩,
    ⟨_, key _ _ (by rw [sub_eq_add_neg, BitVec.ofInt_add, BitVec.ofInt_neg, ho, ho,
      ← BitVec.sub_eq_add_neg]), ?_⟩,
    ⟨_, key _ _ (by rw [BitVec.ofInt_mul, ho, ho]), ?_⟩,
    ⟨_, key _ _ (by rw [BitVec.ofInt_neg, ho]), ?_⟩⟩
  · rw [← p0, decide_eq_true_eq, BitVec.uaddOverflow, decide_eq_true_eq]; omega
  · rw [← p0, decide_eq_true_eq, BitVec.usubOverflow, decide_eq_true_eq]; omega
  · rw [← p0, decide_eq_true_eq, BitVec.umulOverflow, decide_eq_true_eq]
    have h0 : (0 : ℤ) ≤ x.toNat * y.toNat := by positivity
    have e : (x.toNat : ℤ) * y.toNat < ((2 ^ T.bits : ℕ) : ℤ) ↔ x.toNat * y.toNat < 2 ^ T.bits := by
      exact_mod_cast Iff.rfl
    rw [e]
    constructor
    · intro h; by_contra h'; exact h ⟨h0, by omega⟩
    · intro h h'; omega
  · rw [← p0, decide_eq_true_eq, ne_eq, ← BitVec.toNat_inj]
    simp only [BitVec.ofNat_eq_ofNat, BitVec.toNat_ofNat, Nat.zero_mod]
    have : 0 < 2 ^ T.bits := by positivity
    omega

/-- `x / y` and `x % y` of an unsigned type. -/
theorem div_unsigned (hs : T.signed = false) (x y : BitVec T.bits) :
    (T.div x.toNat y.toNat =
      if y = 0 then .fault .divByZero else .ok (x.udiv y).toNat false) ∧
    (T.mod x.toNat y.toNat =
      if y = 0 then .fault .divByZero else .ok (x.umod y).toNat false) := by
  have hy : (y.toNat : ℤ) = 0 ↔ y = 0 := by
    rw [← BitVec.toNat_inj]; simp
  have hx := x.isLt
  have hr : T.InRange ((x.toNat : ℤ).tdiv y.toNat) := by
    rw [inRange_unsigned hs, Int.tdiv_eq_ediv_of_nonneg (by positivity), ← Int.natCast_div]
    have := Nat.div_le_self x.toNat y.toNat
    exact ⟨by positivity, by exact_mod_cast this.trans_lt hx⟩
  by_cases h0 : y = 0
  · rw [div, mod, if_pos (hy.2 h0), if_pos (hy.2 h0), if_pos h0, if_pos h0]; exact ⟨rfl, rfl⟩
  · rw [div, mod, if_neg (mt hy.1 h0), if_neg (mt hy.1 h0), if_neg h0, if_neg h0, if_pos hr,
      if_pos hr]
    rw [Int.tdiv_eq_ediv_of_nonneg (by positivity), Int.tmod_eq_emod_of_nonneg (by positivity)]
    simp [BitVec.toNat_udiv, BitVec.toNat_umod]

/-- `static_cast` keeps the low bits. -/
theorem conv_bits (v : ℤ) : T.conv v =
    .ok (T.ofBits (BitVec.ofInt T.bits v)) (decide (¬ T.InRange v)) := by
  unfold conv
  rw [ofBits_ofInt]
  by_cases h : T.InRange v
  · simp [h, wrap_of_inRange h]
  · simp [h]

/-- `static_cast` from the signed type to the unsigned one of the same width keeps the
pattern, and back. -/
theorem conv_same_bits (hs : T.signed = true) (x : BitVec T.bits) :
    (∃ w, T.toUnsigned.conv x.toInt = .ok (x.toNat : ℤ) w) ∧
    (∃ w, T.conv x.toNat = .ok x.toInt w) := by
  constructor
  · refine ⟨decide (¬ T.toUnsigned.InRange x.toInt), (conv_bits _).trans ?_⟩
    rw [ofBits, if_neg (by simp [toUnsigned])]
    congr 2
    exact congrArg BitVec.toNat (BitVec.ofInt_toInt (x := x))
  · refine ⟨decide (¬ T.InRange x.toNat), (conv_bits _).trans ?_⟩
    rw [ofBits, if_pos hs, BitVec.ofInt_natCast, BitVec.ofNat_toNat, BitVec.setWidth_eq]

/-- `x << n` of an unsigned type. -/
theorem shl_bits (hs : T.signed = false) (x : BitVec T.bits) (n : ℕ) :
    (T.bits ≤ n → T.shl x.toNat n = .fault .shiftRange) ∧
    (n < T.bits → ∃ w, T.shl x.toNat n = .ok (x <<< n).toNat w) := by
  refine ⟨fun h => by rw [shl, if_neg (by omega)], fun h => ?_⟩
  refine ⟨decide (¬ T.InRange ((x.toNat : ℤ) * ((2 ^ n : ℕ) : ℤ))), ?_⟩
  rw [shl, if_pos (by omega), arith_bits, if_neg (by simp [hs]), ofBits, if_neg (by simp [hs])]
  simp only [Int.toNat_natCast]
  congr 2
  rw [BitVec.ofInt_mul, BitVec.ofInt_natCast, BitVec.ofInt_natCast, BitVec.ofNat_toNat,
    BitVec.setWidth_eq]
  simp [BitVec.toNat_mul, BitVec.toNat_shiftLeft, Nat.shiftLeft_eq]

end Ieme.IntTy
