import Verif.Model.Json
import Verif.Spec.Json
import Verif.Proofs.Float
import Mathlib.Data.Nat.Digits.Lemmas

/-! # Shortest decimals of doubles -/

namespace Egts

theorem ilog2_unique {a : ℚ} (ha : 0 < a) {e : Int} (h1 : pow2 e ≤ a) (h2 : a < pow2 (e + 1)) : ilog2 a = e := by
  obtain ⟨g1, g2⟩ := ilog2_spec a ha
  by_contra hne
  rcases lt_or_gt_of_ne hne with h | h
  · have : pow2 (ilog2 a + 1) ≤ pow2 e := pow2_mono (by omega)
    linarith
  · have : pow2 (e + 1) ≤ pow2 (ilog2 a) := pow2_mono (by omega)
    linarith

theorem rnd_pos_eq {x : ℚ} (hx : 0 < x) : rnd x = (roundEven (x / pow2 (ilog2 x - 52)) : ℚ) * pow2 (ilog2 x - 52) := by
  unfold rnd
  rw [if_neg hx.ne']
  simp only [if_pos hx.le]

theorem roundEven_near {q : ℚ} {n : Int} (h : |q - n| < 1 / 2) : roundEven q = n := by
  have e := roundEven_err q
  have h3 : |((roundEven q - n : Int) : ℚ)| < 1 := by
    push_cast
    calc |(roundEven q : ℚ) - n| = |((roundEven q : ℚ) - q) + (q - n)| := by ring_nf
      _ ≤ |(roundEven q : ℚ) - q| + |q - n| := abs_add_le _ _
      _ < 1 := by linarith
  have h4 : |roundEven q - n| < 1 := by exact_mod_cast h3
  rw [Int.abs_lt_one_iff] at h4
  omega

/-- Rounding is the identity on integers of at most 53 bits, scaled by a power of two. -/
theorem rnd_dyadic (n : Nat) (k : Int) (hn : n ≤ 2 ^ 53) : rnd ((n : ℚ) * pow2 k) = n * pow2 k := by
  rcases Nat.eq_zero_or_pos n with h0 | h0
  · subst h0; simp [rnd_zero]
  have hp : 0 < (n : ℚ) * pow2 k := mul_pos (by exact_mod_cast h0) (pow2_pos k)
  rw [rnd_pos_eq hp]
  obtain ⟨g1, g2⟩ := ilog2_spec _ hp
  set M := ilog2 ((n : ℚ) * pow2 k) with hM
  suffices h : ∃ z : Int, (n : ℚ) * pow2 k / pow2 (M - 52) = z by
    obtain ⟨z, hz⟩ := h
    rw [hz, roundEven_int, ← hz, div_mul_cancel₀]
    exact (pow2_pos _).ne'
  rcases Nat.lt_or_ge n (2 ^ 53) with hlt | hge
  · have hM2 : M ≤ k + 52 := by
      by_contra hc
      have h1 : pow2 (k + 53) ≤ pow2 M := pow2_mono (by omega)
      have h2 : (n : ℚ) * pow2 k < pow2 (k + 53) := by
        rw [pow2_add, mul_comm]
        have : (n : ℚ) < pow2 53 := by rw [pow2_eq]; exact_mod_cast hlt
        exact mul_lt_mul_of_pos_left this (pow2_pos k)
      linarith
    obtain ⟨j, hj⟩ : ∃ j : Nat, k = (M - 52) + j := ⟨(k - (M - 52)).toNat, by omega⟩
    refine ⟨n * 2 ^ j, ?_⟩
    rw [hj, pow2_add]
    have hu := (pow2_pos (M - 52)).ne'
    rw [pow2_eq j, zpow_natCast]
    push_cast
    field_simp
  · have hn' : n = 2 ^ 53 := le_antisymm hn hge
    have he : (n : ℚ) * pow2 k = pow2 (k + 53) := by
      rw [hn', pow2_add, mul_comm, pow2_eq 53]; norm_num
    have hMe : M = k + 53 := by
      refine ilog2_unique hp ?_ ?_
      · rw [he]
      · rw [he, pow2_eq, pow2_eq]; exact zpow_lt_zpow_right₀ (by norm_num) (by omega)
    refine ⟨2 ^ 52, ?_⟩
    rw [he, hMe, show k + 53 = (k + 53 - 52) + 52 by ring, pow2_add]
    rw [show k + 53 - 52 + 52 - 52 = k + 53 - 52 by ring]
    have hu := (pow2_pos (k + 53 - 52)).ne'
    rw [mul_div_assoc, mul_comm, div_mul_cancel₀ _ hu, pow2_eq]; norm_num

/-- The positive doubles are the integers of 53 bits scaled by powers of two. -/
theorem rnd_form {x : ℚ} (hx : 0 < x) :
    ∃ n : Nat, 2 ^ 52 ≤ n ∧ n ≤ 2 ^ 53 ∧ rnd x = n * pow2 (ilog2 x - 52) := by
  obtain ⟨g1, g2⟩ := ilog2_spec x hx
  rw [rnd_pos_eq hx]
  set u := pow2 (ilog2 x - 52) with hu
  have hup : 0 < u := pow2_pos _
  have e1 : pow2 (ilog2 x) = 2 ^ 52 * u := by
    rw [hu, show ilog2 x = 52 + (ilog2 x - 52) by ring, pow2_add]
    rw [show 52 + (ilog2 x - 52) - 52 = ilog2 x - 52 by ring, pow2_eq 52]; norm_num
  have e2 : pow2 (ilog2 x + 1) = 2 ^ 53 * u := by
    rw [pow2_add, e1, show pow2 1 = 2 by rw [pow2_eq]; norm_num]; ring
  have h1 : (2 ^ 52 : ℚ) ≤ x / u := by rw [le_div_iff₀ hup, ← e1]; exact g1
  have h2 : x / u < 2 ^ 53 := by rw [div_lt_iff₀ hup, ← e2]; exact g2
  have e := abs_le.mp (roundEven_err (x / u))
  have h3 : (2 ^ 52 : Int) - 1 < roundEven (x / u) := by
    have : ((2 ^ 52 - 1 : Int) : ℚ) < (roundEven (x / u) : ℚ) := by push_cast; linarith [e.1]
    exact_mod_cast this
  have h4 : roundEven (x / u) < (2 ^ 53 : Int) + 1 := by
    have : (roundEven (x / u) : ℚ) < ((2 ^ 53 + 1 : Int) : ℚ) := by push_cast; linarith [e.2]
    exact_mod_cast this
  refine ⟨(roundEven (x / u)).toNat, by omega, by omega, ?_⟩
  congr 1
  have : ((roundEven (x / u)).toNat : Int) = roundEven (x / u) := Int.toNat_of_nonneg (by omega)
  exact_mod_cast this.symm

theorem roundEven_half {q : ℚ} {n : Int} (h : q = n + 1 / 2) : roundEven q = if n % 2 = 0 then n else n + 1 := by
  have hf : q.floor = n := by rw [rat_floor_eq, Int.floor_eq_iff]; constructor <;> linarith
  unfold roundEven
  simp only [hf]
  rw [if_neg (by linarith), if_neg (by linarith)]

theorem roundEven_neg (q : ℚ) : roundEven (-q) = -roundEven q := by
  have h1 := Int.floor_le q
  have h2 := Int.lt_floor_add_one q
  rcases lt_trichotomy (q - ⌊q⌋) (1 / 2) with h | h | h
  · rw [roundEven_near (q := q) (n := ⌊q⌋) (by rw [abs_lt]; constructor <;> linarith)]
    exact roundEven_near (by push_cast; rw [abs_lt]; constructor <;> linarith)
  · rw [roundEven_half (q := q) (n := ⌊q⌋) (by linarith), roundEven_half (q := -q) (n := -⌊q⌋ - 1) (by push_cast; linarith)]
    by_cases h2 : ⌊q⌋ % 2 = 0
    · rw [if_neg (by omega), if_pos h2]; ring
    · rw [if_pos (by omega), if_neg h2]; ring
  · rw [roundEven_near (q := q) (n := ⌊q⌋ + 1) (by push_cast; rw [abs_lt]; constructor <;> linarith)]
    exact roundEven_near (by push_cast; rw [abs_lt]; constructor <;> linarith)

theorem rnd_neg_eq (x : ℚ) (hx : 0 < x) : rnd (-x) = -rnd x := by
  rw [rnd_pos_eq hx]
  unfold rnd
  rw [if_neg (by linarith)]
  simp only [if_neg (show ¬ (0 : ℚ) ≤ -x by linarith), neg_neg]
  rw [neg_div, roundEven_neg]; push_cast; ring

theorem rnd_idem (x : ℚ) : rnd (rnd x) = rnd x := by
  have key : ∀ y : ℚ, 0 < y → rnd (rnd y) = rnd y := by
    intro y hy
    obtain ⟨n, _, hn, he⟩ := rnd_form hy
    rw [he, rnd_dyadic n _ hn]
  rcases lt_trichotomy x 0 with h | h | h
  · have e : rnd x = -rnd (-x) := by
      have := rnd_neg_eq (-x) (by linarith)
      rwa [neg_neg] at this
    have hp : 0 < rnd (-x) := by
      obtain ⟨n, h1, _, he⟩ := rnd_form (show 0 < -x by linarith)
      rw [he]; exact mul_pos (by exact_mod_cast (by omega : 0 < n)) (pow2_pos _)
    rw [e, rnd_neg_eq _ hp, key _ (by linarith)]
  · subst h; simp [rnd_zero]
  · exact key x h

/-- Whatever is nearer to a double than `2^-54` of it rounds to it. -/
theorem rnd_close {f x : ℚ} (hf : 0 < f) (hd : rnd f = f) (hx : |x - f| < f * pow2 (-54)) : rnd x = f := by
  obtain ⟨n, hn1, _, hfe⟩ := rnd_form hf
  rw [hd] at hfe
  obtain ⟨g1, g2⟩ := ilog2_spec f hf
  have hm54 : pow2 (-54) = 1 / 18014398509481984 := by rw [pow2_eq]; norm_num
  obtain ⟨x1, x2⟩ := abs_lt.mp hx
  have hx0 : 0 < x := by rw [hm54] at x1; linarith
  obtain ⟨k1, k2⟩ := ilog2_spec x hx0
  set L := ilog2 f with hL
  set u := pow2 (L - 52) with hu
  have hup : 0 < u := pow2_pos _
  have e1 : pow2 L = 2 ^ 52 * u := by
    rw [hu, show L = 52 + (L - 52) by ring, pow2_add]
    rw [show 52 + (L - 52) - 52 = L - 52 by ring, pow2_eq 52]; norm_num
  have e2 : pow2 (L + 1) = 2 ^ 53 * u := by
    rw [pow2_add, e1, show pow2 1 = 2 by rw [pow2_eq]; norm_num]; ring
  have hnlt : n < 2 ^ 53 := by
    have : (n : ℚ) * u < 2 ^ 53 * u := by rw [← hfe, ← e2]; exact g2
    have := lt_of_mul_lt_mul_right this hup.le
    exact_mod_cast this
  have hhalf : f * pow2 (-54) < u / 2 := by
    rw [e2] at g2
    rw [hm54]
    linarith
  rw [rnd_pos_eq hx0]
  rcases lt_trichotomy (ilog2 x) L with h | h | h
  · -- `f` is a power of two and `x` is just below it
    have hxL : x < pow2 L := lt_of_lt_of_le k2 (pow2_mono (by omega))
    have hn : n = 2 ^ 52 := by
      have h1 : ((n : ℚ) - 2 ^ 52) * u < 1 * u := by
        rw [e1] at hxL; rw [hfe] at x1 hhalf; linarith
      have h2 := lt_of_mul_lt_mul_right h1 hup.le
      have h3 : (n : ℚ) < 2 ^ 52 + 1 := by linarith
      have : n < 2 ^ 52 + 1 := by exact_mod_cast h3
      omega
    have hfL : f = pow2 L := by rw [hfe, hn, e1]; norm_num
    have hM : ilog2 x = L - 1 := by
      refine ilog2_unique hx0 ?_ (by rw [sub_add_cancel]; exact hxL)
      have : pow2 (L - 1) = f / 2 := by
        rw [hfL, sub_eq_add_neg, pow2_add, show pow2 (-1) = 1 / 2 by rw [pow2_eq]; norm_num]; ring
      rw [this]; rw [hm54] at x1; linarith
    rw [hM]
    have hv : pow2 (L - 1 - 52) = u / 2 := by
      rw [show L - 1 - 52 = (L - 52) + (-1) by ring, pow2_add, ← hu, show pow2 (-1) = 1 / 2 by rw [pow2_eq]; norm_num]; ring
    rw [hv]
    have hfu : f = 2 ^ 52 * u := by rw [hfL, e1]
    have hr : roundEven (x / (u / 2)) = 2 ^ 53 := by
      apply roundEven_near
      rw [show x / (u / 2) - ((2 ^ 53 : Int) : ℚ) = (x - f) / (u / 2) by rw [hfu]; field_simp; push_cast; ring]
      rw [abs_div, abs_of_pos (by linarith : 0 < u / 2), div_lt_iff₀ (by linarith)]
      calc |x - f| < f * pow2 (-54) := hx
        _ = 1 / 2 * (u / 2) := by rw [hfu, hm54]; ring
    rw [hr, hfu]; push_cast; ring
  · rw [h, ← hu]
    have hr : roundEven (x / u) = n := by
      apply roundEven_near
      rw [show x / u - ((n : Int) : ℚ) = (x - f) / u by rw [hfe]; field_simp; push_cast; ring]
      rw [abs_div, abs_of_pos hup, div_lt_iff₀ hup]
      linarith
    rw [hr, hfe]; push_cast; ring
  · exfalso
    have h1 : pow2 (L + 1) ≤ pow2 (ilog2 x) := pow2_mono (by omega)
    have h2 : (n : ℚ) + 1 ≤ 2 ^ 53 := by exact_mod_cast hnlt
    have h3 : ((n : ℚ) + 1) * u ≤ 2 ^ 53 * u := mul_le_mul_of_nonneg_right h2 hup.le
    rw [e2] at h1
    have h4 : f + u ≤ x := by rw [hfe]; linarith
    linarith

/-! ## Decimal exponents -/

theorem pow10_eq (e : Int) : pow10 e = (10 : ℚ) ^ e := by
  cases e with
  | ofNat n => simp [pow10]
  | negSucc n => simp [pow10, zpow_negSucc]

theorem pow10_pos (e : Int) : 0 < pow10 e := by rw [pow10_eq]; positivity

theorem pow10_add (a b : Int) : pow10 (a + b) = pow10 a * pow10 b := by
  simp only [pow10_eq]; exact zpow_add₀ (by norm_num) a b

theorem digits_bounds (n : Nat) (h : n ≠ 0) :
    10 ^ ((Nat.digits 10 n).length - 1) ≤ n ∧ n < 10 ^ (Nat.digits 10 n).length ∧ 1 ≤ (Nat.digits 10 n).length := by
  have h1 : (Nat.digits 10 n).length = Nat.log 10 n + 1 := Nat.length_digits 10 n (by norm_num) h
  rw [h1]
  exact ⟨by simpa using Nat.pow_log_le_self 10 h, Nat.lt_pow_succ_log_self (by norm_num) n, by omega⟩

theorem dexp_spec (a : ℚ) (ha : 0 < a) : pow10 (dexp a - 1) ≤ a ∧ a < pow10 (dexp a) := by
  have hnum : 0 < a.num := Rat.num_pos.mpr ha
  have hn0 : a.num.natAbs ≠ 0 := by omega
  have hd0 : a.den ≠ 0 := a.den_nz
  obtain ⟨n1, n2, n3⟩ := digits_bounds _ hn0
  obtain ⟨d1, d2, d3⟩ := digits_bounds _ hd0
  have hae : a = (a.num.natAbs : ℚ) / (a.den : ℚ) := by
    conv_lhs => rw [← Rat.num_div_den a]
    congr 1
    have : ((a.num.natAbs : ℤ) : ℚ) = (a.num : ℚ) := by
      rw [Int.natAbs_of_nonneg hnum.le]
    rw [← this]; simp
  unfold dexp
  simp only
  set N := a.num.natAbs
  set D := a.den
  generalize (Nat.digits 10 N).length = ln at *
  generalize (Nat.digits 10 D).length = ld at *
  obtain ⟨p, rfl⟩ : ∃ p, ln = p + 1 := ⟨ln - 1, by omega⟩
  obtain ⟨q, rfl⟩ : ∃ q, ld = q + 1 := ⟨ld - 1, by omega⟩
  simp only [Nat.add_sub_cancel] at n1 d1
  have hDp : (0 : ℚ) < D := by exact_mod_cast Nat.pos_of_ne_zero hd0
  have n1' : (10 : ℚ) ^ p ≤ N := by exact_mod_cast n1
  have n2' : (N : ℚ) < 10 ^ (p + 1) := by exact_mod_cast n2
  have d1' : (10 : ℚ) ^ q ≤ D := by exact_mod_cast d1
  have d2' : (D : ℚ) < 10 ^ (q + 1) := by exact_mod_cast d2
  have hk : pow10 (((p + 1 : Nat) : Int) - ((q + 1 : Nat) : Int)) = (10 : ℚ) ^ p / 10 ^ q := by
    rw [show ((p + 1 : Nat) : Int) - ((q + 1 : Nat) : Int) = (p : Int) - (q : Int) by push_cast; ring]
    rw [pow10_eq, zpow_sub₀ (by norm_num)]; simp
  have hP := pow_pos (show (0 : ℚ) < 10 by norm_num) p
  have hQ := pow_pos (show (0 : ℚ) < 10 by norm_num) q
  split
  · rename_i hlt
    refine ⟨?_, hlt⟩
    rw [sub_eq_add_neg, pow10_add, hk, hae, show pow10 (-1) = 1 / 10 by rw [pow10_eq]; norm_num]
    rw [div_mul_div_comm, div_le_div_iff₀ (by positivity) hDp]
    have : (10 : ℚ) ^ (q + 1) = 10 ^ q * 10 := pow_succ _ _
    nlinarith
  · rename_i hge
    refine ⟨by rw [add_sub_cancel_right]; exact not_lt.mp hge, ?_⟩
    rw [pow10_add, hk, hae, show pow10 1 = 10 by rw [pow10_eq]; norm_num, div_mul_eq_mul_div, div_lt_div_iff₀ hDp hQ]
    have : (10 : ℚ) ^ (p + 1) = 10 ^ p * 10 := pow_succ _ _
    nlinarith

/-! ## The search for the shortest decimal -/

theorem shortDigits_sound {f : ℚ} {k : Int} {n : Nat} {m : Nat} {e : Int} (hf : 0 < f) (h : shortDigits f k n = some (m, e)) :
    rnd ((m : ℚ) * pow10 e) = f := by
  unfold shortDigits at h
  simp only at h
  set u := pow10 (k - n) with hu
  have hup : 0 < u := pow10_pos _
  split at h
  · rename_i hb
    simp only [Option.some.injEq, Prod.mk.injEq] at h
    obtain ⟨rfl, rfl⟩ := h
    have h0 : 0 ≤ (f / u).floor := by rw [rat_floor_eq]; exact Int.floor_nonneg.mpr (div_pos hf hup).le
    rcases roundEven_cases (f / u) with ⟨h1, _⟩ | ⟨h1, _⟩
    · rw [h1]; exact hb.1
    · rw [h1, show ((f / u).floor + 1).toNat = (f / u).floor.toNat + 1 by omega]; exact hb.2
  · split at h
    · simp only [Option.some.injEq, Prod.mk.injEq] at h
      obtain ⟨rfl, rfl⟩ := h
      assumption
    · split at h
      · simp only [Option.some.injEq, Prod.mk.injEq] at h
        obtain ⟨rfl, rfl⟩ := h
        assumption
      · cases h

theorem shortDigits_17 {f : ℚ} (hf : 0 < f) (hd : rnd f = f) : ∃ d, shortDigits f (dexp f) 17 = some d := by
  obtain ⟨g1, g2⟩ := dexp_spec f hf
  set k := dexp f with hk
  have hu : pow10 (k - (17 : Nat)) = pow10 (k - 1) / 10000000000000000 := by
    rw [show k - ((17 : Nat) : Int) = (k - 1) + (-16) by push_cast; ring, pow10_add,
      show pow10 (-16) = 1 / 10000000000000000 by rw [pow10_eq]; norm_num]; ring
  set u := pow10 (k - (17 : Nat)) with hu'
  have hup : 0 < u := pow10_pos _
  have hm54 : pow2 (-54) = 1 / 18014398509481984 := by rw [pow2_eq]; norm_num
  have hsmall : u / 2 < f * pow2 (-54) := by rw [hm54, hu]; linarith
  have h0 : 0 ≤ ⌊f / u⌋ := Int.floor_nonneg.mpr (div_pos hf hup).le
  have h1 := Int.floor_le (f / u)
  have h2 := Int.lt_floor_add_one (f / u)
  have hlo : (((f / u).floor.toNat : Nat) : ℚ) = (⌊f / u⌋ : ℚ) := by
    rw [rat_floor_eq]
    have := Int.toNat_of_nonneg h0
    exact_mod_cast this
  have hfu : f = f / u * u := by field_simp
  have hor : rnd ((((f / u).floor.toNat : Nat) : ℚ) * u) = f ∨ rnd ((((f / u).floor.toNat + 1 : Nat) : ℚ) * u) = f := by
    rcases le_total (f / u - ⌊f / u⌋) (1 / 2) with h | h
    · left
      apply rnd_close hf hd
      refine lt_of_le_of_lt ?_ hsmall
      rw [hlo]
      conv_lhs => rw [hfu]
      rw [← sub_mul, abs_mul, abs_of_pos hup, abs_of_nonpos (by rw [← hfu]; linarith), ← hfu]
      nlinarith
    · right
      apply rnd_close hf hd
      refine lt_of_le_of_lt ?_ hsmall
      push_cast
      rw [hlo]
      conv_lhs => rw [hfu]
      rw [← sub_mul, abs_mul, abs_of_pos hup, abs_of_nonneg (by rw [← hfu]; linarith), ← hfu]
      nlinarith
  unfold shortDigits
  simp only
  rw [← hu']
  split
  · exact ⟨_, rfl⟩
  · split
    · exact ⟨_, rfl⟩
    · split
      · exact ⟨_, rfl⟩
      · rcases hor with h | h <;> contradiction

theorem shortestFrom_sound {f : ℚ} {k : Int} (hf : 0 < f) :
    ∀ (fuel n : Nat), (∃ j, n ≤ j ∧ j < n + fuel ∧ ∃ d, shortDigits f k j = some d) →
      rnd (((shortestFrom f k fuel n).1 : ℚ) * pow10 (shortestFrom f k fuel n).2) = f := by
  intro fuel
  induction fuel with
  | zero => rintro n ⟨j, h1, h2, _⟩; omega
  | succ fuel ih =>
    rintro n ⟨j, h1, h2, d, hd⟩
    unfold shortestFrom
    cases hs : shortDigits f k n with
    | some d' => exact shortDigits_sound hf hs
    | none =>
      refine ih (n + 1) ⟨j, ?_, by omega, d, hd⟩
      rcases Nat.lt_or_ge n j with h | h
      · omega
      · have : j = n := by omega
        subst this; rw [hs] at hd; cases hd

/-- The shortest decimal reads back as the double. -/
theorem shortestFrom_rnd {f : ℚ} (hf : 0 < f) (hd : rnd f = f) :
    rnd (((shortestFrom f (dexp f) 17 1).1 : ℚ) * pow10 (shortestFrom f (dexp f) 17 1).2) = f :=
  shortestFrom_sound hf 17 1 ⟨17, by omega, by omega, shortDigits_17 hf hd⟩

end Egts
