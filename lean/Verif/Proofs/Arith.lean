import Verif.Spec.Basic

/-!
# Lemmas on padding and words
-/

namespace Verif

theorem IsAlign.pos {c : Cfg} {a : Nat} (h : IsAlign c a) : 0 < a := by
  obtain ⟨k, _, rfl⟩ := h; exact Nat.two_pow_pos k

theorem le_padTo {a : Nat} (ha : 0 < a) (n : Nat) : n ≤ padTo a n := by
  unfold padTo
  have h := Nat.div_add_mod (n + (a - 1)) a
  have h2 := Nat.mod_lt (n + (a - 1)) ha
  rw [Nat.mul_comm] at h
  omega

theorem padTo_lt {a : Nat} (ha : 0 < a) (n : Nat) : padTo a n < n + a := by
  unfold padTo
  have h := Nat.div_mul_le_self (n + (a - 1)) a
  omega

theorem dvd_padTo (a n : Nat) : a ∣ padTo a n := Nat.dvd_mul_left _ _

theorem padTo_of_dvd {a n : Nat} (ha : 0 < a) (h : a ∣ n) : padTo a n = n := by
  obtain ⟨k, rfl⟩ := h
  unfold padTo
  rw [Nat.mul_add_div ha, Nat.div_eq_of_lt (by omega : a - 1 < a)]
  simp [Nat.mul_comm]

theorem padTo_least {a n m : Nat} (ha : 0 < a) (hm : a ∣ m) (h : n ≤ m) : padTo a n ≤ m := by
  have : n + (a - 1) < m + a := by omega
  obtain ⟨k, rfl⟩ := hm
  unfold padTo
  have : (n + (a - 1)) / a < k + 1 := by
    rw [Nat.div_lt_iff_lt_mul ha, Nat.add_mul, Nat.mul_comm k]
    omega
  calc (n + (a - 1)) / a * a ≤ k * a := Nat.mul_le_mul_right _ (by omega)
    _ = a * k := Nat.mul_comm _ _

theorem padTo_leastMultiple {a : Nat} (ha : 0 < a) (n : Nat) : LeastMultiple a n (padTo a n) :=
  ⟨dvd_padTo a n, le_padTo ha n, fun _ h1 h2 => padTo_least ha h1 h2⟩

theorem LeastMultiple.unique {a n m m' : Nat} (h : LeastMultiple a n m) (h' : LeastMultiple a n m') : m = m' :=
  Nat.le_antisymm (h.2.2 _ h'.1 h'.2.1) (h'.2.2 _ h.1 h.2.1)

theorem padTo_mono {a n m : Nat} (h : n ≤ m) : padTo a n ≤ padTo a m := by
  unfold padTo
  exact Nat.mul_le_mul_right _ (Nat.div_le_div_right (by omega))

@[simp] theorem padTo_zero (a : Nat) : padTo a 0 = 0 := by
  unfold padTo
  rcases Nat.eq_zero_or_pos a with h | h
  · simp [h]
  · rw [Nat.div_eq_of_lt (by omega)]; simp

@[simp] theorem padTo_padTo {a : Nat} (ha : 0 < a) (n : Nat) : padTo a (padTo a n) = padTo a n :=
  padTo_of_dvd ha (dvd_padTo a n)

theorem padTo_add {a m : Nat} (ha : 0 < a) (hm : a ∣ m) (n : Nat) : padTo a (m + n) = m + padTo a n := by
  obtain ⟨k, rfl⟩ := hm
  unfold padTo
  rw [show a * k + n + (a - 1) = a * k + (n + (a - 1)) by omega, Nat.mul_add_div ha, Nat.add_mul,
    Nat.mul_comm k]

theorem padTo_one (n : Nat) : padTo 1 n = n := by simp [padTo]

theorem padTo_le_padTo_of_dvd {a b : Nat} (hb : 0 < b) (ha : 0 < a) (h : a ∣ b) (n : Nat) :
    padTo a n ≤ padTo b n :=
  padTo_least ha (Nat.dvd_trans h (dvd_padTo b n)) (le_padTo hb n)

/-- Rounding with a mask is rounding to a multiple. -/
theorem and_mask {w k x : Nat} (hk : k ≤ w) (hx : x < 2 ^ w) :
    x &&& (2 ^ w - 1 - (2 ^ k - 1)) = x / 2 ^ k * 2 ^ k := by
  have hpos := Nat.two_pow_pos k
  have hle : 2 ^ k ≤ 2 ^ w := Nat.pow_le_pow_right (by decide) hk
  have e : 2 ^ w - 1 - (2 ^ k - 1) = 2 ^ w - ((2 ^ k - 1) + 1) := by omega
  rw [e]
  apply Nat.eq_of_testBit_eq
  intro i
  rw [Nat.testBit_and, Nat.testBit_two_pow_sub_succ (by omega), Nat.testBit_mul_two_pow,
    Nat.testBit_div_two_pow, Nat.testBit_two_pow_sub_one]
  by_cases h : k ≤ i
  · have : i - k + k = i := by omega
    rw [this]
    have hik : ¬ i < k := by omega
    by_cases hw : i < w
    · simp [h, hik, hw]
    · have : x.testBit i = false :=
        Nat.testBit_lt_two_pow (Nat.lt_of_lt_of_le hx (Nat.pow_le_pow_right (by decide) (by omega)))
      simp [this]
  · have : i < k := by omega
    simp [h, this]

namespace Cfg

theorem isizeMax_lt (c : Cfg) : c.isizeMax < 2 ^ (c.bits - 1) := by
  have := Nat.two_pow_pos (c.bits - 1)
  unfold isizeMax; omega

theorem isizeMax_le_usizeMax (c : Cfg) : c.isizeMax ≤ c.usizeMax := by
  unfold isizeMax usizeMax
  have : 2 ^ (c.bits - 1) ≤ 2 ^ c.bits := Nat.pow_le_pow_right (by decide) (by omega)
  omega

end Cfg

/-- An alignment minus one is at most `isize::MAX`. -/
theorem IsAlign.sub_one_le {c : Cfg} {a : Nat} (h : IsAlign c a) : a - 1 ≤ c.isizeMax := by
  obtain ⟨k, hk, rfl⟩ := h
  unfold Cfg.isizeMax
  have : 2 ^ k ≤ 2 ^ (c.bits - 1) := Nat.pow_le_pow_right (by decide) (by omega)
  omega

/-- Two numbers up to `isize::MAX` can be added. -/
theorem add_le_usizeMax {c : Cfg} (hb : 0 < c.bits) {x y : Nat} (hx : x ≤ c.isizeMax) (hy : y ≤ c.isizeMax) :
    x + y ≤ c.usizeMax := by
  unfold Cfg.isizeMax at *
  unfold Cfg.usizeMax
  have : 2 ^ c.bits = 2 ^ (c.bits - 1) * 2 := by
    rw [← Nat.pow_succ]; congr 1; omega
  have := Nat.two_pow_pos (c.bits - 1)
  omega

theorem IsAlign.bits_pos {c : Cfg} {a : Nat} (h : IsAlign c a) : 0 < c.bits := by
  obtain ⟨k, hk, _⟩ := h; omega

theorem and_bitNot {c : Cfg} {a x : Nat} (ha : IsAlign c a) (hx : x ≤ c.usizeMax) :
    x &&& bitNot c (a - 1) = x / a * a := by
  obtain ⟨k, hk, rfl⟩ := ha
  unfold bitNot
  have := Nat.two_pow_pos c.bits
  unfold Cfg.usizeMax at *
  exact and_mask (by omega) (by omega)

/-- A multiple of an alignment that is at most `isize::MAX` leaves room for the alignment minus one. -/
theorem IsAlign.room {c : Cfg} {a n : Nat} (ha : IsAlign c a) (hd : a ∣ n) (hn : n ≤ c.isizeMax) :
    n + (a - 1) ≤ c.isizeMax := by
  obtain ⟨k, hk, rfl⟩ := ha
  unfold Cfg.isizeMax at *
  have h1 : (2:Nat) ^ (c.bits - 1) = 2 ^ (c.bits - 1 - k) * 2 ^ k := by
    rw [← Nat.pow_add]; congr 1; omega
  have h0 := Nat.two_pow_pos (c.bits - 1)
  have hk0 := Nat.two_pow_pos k
  obtain ⟨m, rfl⟩ := hd
  have : m < 2 ^ (c.bits - 1 - k) := by
    have h2 : m * 2 ^ k < 2 ^ (c.bits - 1 - k) * 2 ^ k := by
      rw [← h1, Nat.mul_comm m]; omega
    exact Nat.lt_of_mul_lt_mul_right h2
  have h3 : (m + 1) * 2 ^ k ≤ 2 ^ (c.bits - 1 - k) * 2 ^ k := Nat.mul_le_mul_right _ this
  rw [← h1, Nat.add_mul, Nat.one_mul, Nat.mul_comm m] at h3
  omega

theorem IsAlign.dvd_of_le {c : Cfg} {a b : Nat} (ha : IsAlign c a) (hb : IsAlign c b) (h : a ≤ b) : a ∣ b := by
  obtain ⟨k, hk, rfl⟩ := ha
  obtain ⟨l, hl, rfl⟩ := hb
  exact Nat.pow_dvd_pow 2 ((Nat.pow_le_pow_iff_right (by decide)).mp h)

theorem IsAlign.one {c : Cfg} (h : 0 < c.bits) : IsAlign c 1 := ⟨0, h, rfl⟩

theorem IsAlign.max {c : Cfg} {a b : Nat} (ha : IsAlign c a) (hb : IsAlign c b) : IsAlign c (max a b) := by
  rcases Nat.le_total a b with h | h
  · rw [Nat.max_eq_right h]; exact hb
  · rw [Nat.max_eq_left h]; exact ha

theorem IsAlign.min {c : Cfg} {a b : Nat} (ha : IsAlign c a) (hb : IsAlign c b) : IsAlign c (min a b) := by
  rcases Nat.le_total a b with h | h
  · rw [Nat.min_eq_left h]; exact ha
  · rw [Nat.min_eq_right h]; exact hb

theorem mem_variants {c : Cfg} {a : Nat} : a ∈ ValidAlign.variants c ↔ IsAlign c a := by
  simp only [ValidAlign.variants, List.mem_map, List.mem_range, IsAlign, Nat.shiftLeft_eq, Nat.one_mul]
  exact exists_congr fun k => and_congr_right fun _ => eq_comm

theorem layoutUnchecked_eq {c : Cfg} {s a : Nat} (ha : IsAlign c a) (h : s + (a - 1) ≤ c.isizeMax) :
    layoutUnchecked c s a = some ⟨s, a⟩ := by
  unfold layoutUnchecked
  rw [if_pos ⟨mem_variants.mpr ha, h⟩]

theorem minus1_eq {a : Nat} (h : 0 < a) : ValidAlign.minus1 a = some (a - 1) := by
  unfold ValidAlign.minus1 uncheckedSub
  rw [if_pos (by omega)]

namespace VSU

theorem newUnchecked_eq {c : Cfg} {n : Nat} (h : n ≤ c.isizeMax) : newUnchecked c n = some n := by
  unfold newUnchecked; rw [if_pos h]

theorem uncheckedAdd_eq {c : Cfg} {x y : Nat} (h : x + y ≤ c.isizeMax) : uncheckedAdd c x y = some (x + y) := by
  have := c.isizeMax_le_usizeMax
  unfold uncheckedAdd Verif.uncheckedAdd
  rw [if_pos (by omega)]
  exact newUnchecked_eq h

theorem uncheckedSub_eq {c : Cfg} {x y : Nat} (h : y ≤ x) (hx : x - y ≤ c.isizeMax) :
    uncheckedSub c x y = some (x - y) := by
  unfold uncheckedSub Verif.uncheckedSub
  rw [if_pos h]
  exact newUnchecked_eq hx

theorem checkedAdd_eq {c : Cfg} (x y : Nat) :
    checkedAdd c x y = if x + y ≤ c.isizeMax then some (x + y) else none := by
  have := c.isizeMax_le_usizeMax
  unfold checkedAdd Verif.checkedAdd new
  by_cases h : x + y ≤ c.usizeMax
  · simp [h]
  · have : ¬ x + y ≤ c.isizeMax := by omega
    simp [h, this]

theorem uncheckedPadTo_eq {c : Cfg} {x a : Nat} (ha : IsAlign c a) (hx : x ≤ c.isizeMax)
    (hp : padTo a x ≤ c.isizeMax) : uncheckedPadTo c x a = some (padTo a x) := by
  have h1 : x + (a - 1) ≤ c.usizeMax := add_le_usizeMax ha.bits_pos hx ha.sub_one_le
  unfold uncheckedPadTo
  rw [minus1_eq ha.pos]
  simp only [Option.bind_eq_bind, Option.bind_some, Verif.uncheckedAdd, if_pos h1]
  rw [and_bitNot ha h1]
  exact newUnchecked_eq hp

theorem uncheckedPadTo_none {c : Cfg} {x a : Nat} (ha : IsAlign c a) (hx : x ≤ c.isizeMax)
    (hp : ¬ padTo a x ≤ c.isizeMax) : uncheckedPadTo c x a = none := by
  have h1 : x + (a - 1) ≤ c.usizeMax := add_le_usizeMax ha.bits_pos hx ha.sub_one_le
  unfold uncheckedPadTo
  rw [minus1_eq ha.pos]
  simp only [Option.bind_eq_bind, Option.bind_some, Verif.uncheckedAdd, if_pos h1]
  rw [and_bitNot ha h1]
  unfold newUnchecked
  exact if_neg hp

theorem checkedPadTo_eq {c : Cfg} {x a : Nat} (ha : IsAlign c a) (hx : x ≤ c.isizeMax) :
    checkedPadTo c x a = some (if padTo a x ≤ c.isizeMax then some (padTo a x) else none) := by
  have h1 : x + (a - 1) ≤ c.usizeMax := add_le_usizeMax ha.bits_pos hx ha.sub_one_le
  unfold checkedPadTo
  rw [minus1_eq ha.pos]
  simp only [Option.bind_eq_bind, Option.bind_some, Verif.uncheckedAdd, if_pos h1]
  rw [and_bitNot ha h1]
  rfl

theorem padTo_gt_of_overflow {c : Cfg} {a n : Nat} (ha : IsAlign c a) (h : ¬ n + (a - 1) ≤ c.usizeMax) :
    ¬ padTo a n ≤ c.isizeMax := by
  intro hp
  have h1 := le_padTo ha.pos n
  have h2 := add_le_usizeMax ha.bits_pos (x := n) (y := a - 1) (by omega) ha.sub_one_le
  exact h h2

theorem newPaddedTo_eq {c : Cfg} {n a : Nat} (ha : IsAlign c a) :
    newPaddedTo c n a = some (if padTo a n ≤ c.isizeMax then some (padTo a n) else none) := by
  unfold newPaddedTo
  rw [minus1_eq ha.pos]
  simp only [Option.bind_eq_bind, Option.bind_some, Verif.checkedAdd]
  by_cases h : n + (a - 1) ≤ c.usizeMax
  · simp only [if_pos h]
    rw [and_bitNot ha h]
    rfl
  · simp only [if_neg h, if_neg (padTo_gt_of_overflow ha h)]
    rfl

theorem checkedAddPad_eq {c : Cfg} {x r a : Nat} (ha : IsAlign c a) :
    checkedAddPad c x r a = some (if padTo a (x + r) ≤ c.isizeMax then some (padTo a (x + r)) else none) := by
  unfold checkedAddPad Verif.checkedAdd
  by_cases h : x + r ≤ c.usizeMax
  · simp only [if_pos h]
    exact newPaddedTo_eq ha
  · have h1 := le_padTo ha.pos (x + r)
    have h2 := c.isizeMax_le_usizeMax
    simp only [if_neg h]
    rw [if_neg (by omega)]
    rfl

theorem maxForAlign_eq {c : Cfg} {a : Nat} (ha : IsAlign c a) :
    maxForAlign c a = some (c.isizeMax - (a - 1)) := by
  have := ha.sub_one_le
  unfold maxForAlign
  rw [minus1_eq ha.pos]
  simp only [Option.bind_eq_bind, Option.bind_some, Verif.uncheckedSub, if_pos this]
  exact newUnchecked_eq (by omega)

theorem newSquishedTo_eq {c : Cfg} {n a : Nat} (ha : IsAlign c a) :
    newSquishedTo c n a = some (min n (c.isizeMax - (a - 1))) := by
  unfold newSquishedTo
  rw [maxForAlign_eq ha]
  simp only [Option.bind_eq_bind, Option.bind_some]
  by_cases h : n ≤ c.isizeMax - (a - 1)
  · rw [if_pos h, newUnchecked_eq (by omega), Nat.min_eq_left h]
  · rw [if_neg h, Nat.min_eq_right (by omega)]; rfl

end VSU

namespace VS

theorem newUnchecked_eq {c : Cfg} {a n : Nat} (h : n ≤ max c a) : newUnchecked c a n = some n := by
  unfold newUnchecked; rw [if_pos h]

theorem max_le_isizeMax (c : Cfg) (a : Nat) : max c a ≤ c.isizeMax := by unfold max; omega

theorem uncheckedAdd_eq {c : Cfg} {a x y : Nat} (h : x + y ≤ max c a) : uncheckedAdd c a x y = some (x + y) := by
  have := c.isizeMax_le_usizeMax
  have := max_le_isizeMax c a
  unfold uncheckedAdd Verif.uncheckedAdd
  rw [if_pos (by omega)]
  exact newUnchecked_eq h

theorem uncheckedSub_eq {c : Cfg} {a x y : Nat} (h : y ≤ x) (hx : x - y ≤ max c a) :
    uncheckedSub c a x y = some (x - y) := by
  unfold uncheckedSub Verif.uncheckedSub
  rw [if_pos h]
  exact newUnchecked_eq hx

theorem newSquished_eq {c : Cfg} {a n : Nat} : newSquished c a n = min n (max c a) := by
  unfold newSquished
  by_cases h : n ≤ max c a
  · rw [if_pos h, Nat.min_eq_left h]
  · rw [if_neg h, Nat.min_eq_right (by omega)]

end VS

theorem isPowerOfTwo_iff (x : Nat) : ValidAlign.isPowerOfTwo x = true ↔ ∃ k, x = 2 ^ k := by
  unfold ValidAlign.isPowerOfTwo
  rw [Bool.and_eq_true, bne_iff_ne, beq_iff_eq]
  exact Nat.ne_zero_and_sub_one_eq_zero_iff_isPowerOfTwo

theorem trailingZeros_two_pow (fuel k : Nat) (h : k < fuel) : ValidAlign.trailingZeros fuel (2 ^ k) = k := by
  induction fuel generalizing k with
  | zero => omega
  | succ n ih =>
    cases k with
    | zero => simp [ValidAlign.trailingZeros]
    | succ k =>
      have h1 : (2 : Nat) ^ (k + 1) % 2 ≠ 1 := by rw [Nat.pow_succ]; omega
      have h2 : (2 : Nat) ^ (k + 1) / 2 = 2 ^ k := by rw [Nat.pow_succ]; omega
      simp only [ValidAlign.trailingZeros, h2, if_neg h1]
      rw [ih k (by omega)]

theorem validAlign_new_eq {c : Cfg} {a : Nat} (h : IsAlign c a) : ValidAlign.new a = some a := by
  obtain ⟨k, _, rfl⟩ := h
  unfold ValidAlign.new
  rw [if_pos ((isPowerOfTwo_iff _).mpr ⟨k, rfl⟩)]

end Verif
