import Verif.Model.Marshal
import Verif.Spec.PkgJson
import Verif.Proofs.JsonRead

/-! # Shortest decimals of `float32` numbers -/

namespace Egts
open Json

theorem rnd32_zero : rnd32 0 = 0 := by simp [rnd32]

/-- The unit in the last place of the `float32` numbers around `x`. -/
abbrev ulp32 (x : ℚ) : Int := max (ilog2 x - 23) (-149)

theorem rnd32_pos_eq {x : ℚ} (hx : 0 < x) : rnd32 x = (roundEven (x / pow2 (ulp32 x)) : ℚ) * pow2 (ulp32 x) := by
  unfold rnd32
  rw [if_neg hx.ne', if_pos hx.le]

/-- A positive `float32`: an integer of 24 bits, scaled. -/
structure IsF32 (f : ℚ) (n : Nat) (k : Int) : Prop where
  pos : n ≠ 0
  lt : n < 2 ^ 24
  lo : -149 ≤ k
  hi : k ≤ 104
  eq : f = n * pow2 k

theorem IsF32.gt {f : ℚ} {n : Nat} {k : Int} (h : IsF32 f n k) : 0 < f := by
  have := h.pos
  rw [h.eq]
  exact mul_pos (by exact_mod_cast Nat.pos_of_ne_zero this) (pow2_pos _)

theorem IsF32.ulp_le {f : ℚ} {n : Nat} {k : Int} (h : IsF32 f n k) : ulp32 f ≤ k := by
  obtain ⟨g1, g2⟩ := ilog2_spec f h.gt
  have h1 : f < pow2 (k + 24) := by
    rw [h.eq, pow2_add, mul_comm]
    refine mul_lt_mul_of_pos_left ?_ (pow2_pos _)
    rw [pow2_eq]
    have := h.lt
    norm_num at this ⊢
    exact_mod_cast this
  have h2 : ilog2 f < k + 24 := by
    by_contra hc
    have := pow2_mono (show k + 24 ≤ ilog2 f by omega)
    linarith
  have := h.lo
  unfold ulp32
  omega

theorem IsF32.div {f : ℚ} {n : Nat} {k : Int} (h : IsF32 f n k) :
    f / pow2 (ulp32 f) = ((n * 2 ^ (k - ulp32 f).toNat : Nat) : ℚ) := by
  have hle := h.ulp_le
  have h1 : pow2 k = pow2 (ulp32 f) * ((2 ^ (k - ulp32 f).toNat : Nat) : ℚ) := by
    conv_lhs => rw [show k = ulp32 f + ((k - ulp32 f).toNat : Int) by omega]
    rw [pow2_add]
    congr 1
  have h2 := (pow2_pos (ulp32 f)).ne'
  rw [div_eq_iff h2]
  conv_lhs => rw [h.eq, h1]
  push_cast
  ring

theorem IsF32.rnd {f : ℚ} {n : Nat} {k : Int} (h : IsF32 f n k) : rnd32 f = f := by
  rw [rnd32_pos_eq h.gt, h.div, ← Int.cast_natCast, roundEven_int, Int.cast_natCast, ← h.div]
  exact div_mul_cancel₀ _ (pow2_pos _).ne'

theorem f32Abs_form {bits : UInt32} {a : ℚ} (h : f32Abs bits = some a) (ha : a ≠ 0) : ∃ n k, IsF32 a n k := by
  unfold f32Abs at h
  simp only at h
  have hm : bits.toNat % 2 ^ 23 < 2 ^ 23 := Nat.mod_lt _ (by norm_num)
  have he : bits.toNat / 2 ^ 23 % 256 < 256 := Nat.mod_lt _ (by norm_num)
  generalize bits.toNat % 2 ^ 23 = m at *
  generalize bits.toNat / 2 ^ 23 % 256 = e at *
  split at h
  · cases h
  · split at h
    · injection h with h
      refine ⟨m, -149, ?_, by omega, by omega, by omega, h.symm⟩
      rintro rfl
      simp at h; exact ha h.symm
    · injection h with h
      exact ⟨m + 2 ^ 23, (e : Int) - 150, by omega, by omega, by omega, by omega, h.symm⟩

theorem f32Abs_nonneg {bits : UInt32} {a : ℚ} (h : f32Abs bits = some a) : 0 ≤ a := by
  by_cases h0 : a = 0
  · rw [h0]
  · obtain ⟨n, k, hf⟩ := f32Abs_form h h0
    exact hf.gt.le

theorem shortDigits32_sound {f : ℚ} {k : Int} {n : Nat} {m : Nat} {e : Int} (hf : 0 < f) (h : shortDigits32 f k n = some (m, e)) :
    rnd32 ((m : ℚ) * pow10 e) = f := by
  unfold shortDigits32 at h
  simp only at h
  set u := pow10 (k - n) with hu
  have hup : 0 < u := pow10_pos _
  split at h
  · rename_i hb
    simp only [Option.some.injEq, Prod.mk.injEq] at h
    obtain ⟨rfl, rfl⟩ := h
    have h0 : 0 ≤ (f / u).floor := by rw [rat_floor_eq]; exact Int.floor_nonneg.mpr (div_pos hf hup).le
    rcases roundEven_cases (f / u) with ⟨h1, _⟩ | ⟨h1, _⟩
    · rw [h1]; exact hb.1
    · rw [h1, show ((f / u).floor + 1).toNat = (f / u).floor.toNat + 1 by omega]; exact hb.2
  · split at h
    · simp only [Option.some.injEq, Prod.mk.injEq] at h
      obtain ⟨rfl, rfl⟩ := h
      assumption
    · split at h
      · simp only [Option.some.injEq, Prod.mk.injEq] at h
        obtain ⟨rfl, rfl⟩ := h
        assumption
      · cases h

theorem shortestFrom32_sound {f : ℚ} {k : Int} (hf : 0 < f) :
    ∀ (fuel n : Nat), (∃ j, n ≤ j ∧ j < n + fuel ∧ ∃ d, shortDigits32 f k j = some d) →
      rnd32 (((shortestFrom32 f k fuel n).1 : ℚ) * pow10 (shortestFrom32 f k fuel n).2) = f := by
  intro fuel
  induction fuel with
  | zero => rintro n ⟨j, h1, h2, _⟩; omega
  | succ fuel ih =>
    rintro n ⟨j, h1, h2, d, hd⟩
    unfold shortestFrom32
    cases hs : shortDigits32 f k n with
    | some d' => exact shortDigits32_sound hf hs
    | none =>
      refine ih (n + 1) ⟨j, ?_, by omega, d, hd⟩
      rcases Nat.lt_or_ge n j with h | h
      · omega
      · have : j = n := by omega
        subst this; rw [hs] at hd; cases hd

/-- With enough digits the decimal is exact. -/
theorem shortDigits32_exact {f : ℚ} {n : Nat} {k : Int} (h : IsF32 f n k) {K : Int} {j : Nat} (hj : K + 149 ≤ j) :
    ∃ d, shortDigits32 f K j = some d := by
  have hk := h.lo
  obtain ⟨i, hi⟩ : ∃ i : Nat, K - (j : Int) = -(i : Int) := ⟨(j - K).toNat, by omega⟩
  have hi149 : 149 ≤ i := by omega
  obtain ⟨t, ht⟩ : ∃ t : Nat, k = (t : Int) - i := ⟨(k + i).toNat, by omega⟩
  have hq : f / pow10 (K - j) = ((n * 2 ^ t * 5 ^ i : Nat) : ℚ) := by
    rw [hi, pow10_eq, zpow_neg, zpow_natCast, div_inv_eq_mul, h.eq, ht, pow2_eq, sub_eq_add_neg, zpow_add₀ (by norm_num), zpow_natCast,
      zpow_neg, zpow_natCast, show (10 : ℚ) = 2 * 5 by norm_num, mul_pow]
    push_cast
    field_simp
  have hfl : ((f / pow10 (K - j)).floor.toNat : ℚ) * pow10 (K - j) = f := by
    have h1 : (f / pow10 (K - j)).floor.toNat = n * 2 ^ t * 5 ^ i := by
      rw [hq, rat_floor_eq, Int.floor_natCast, Int.toNat_natCast]
    rw [h1, ← hq]
    exact div_mul_cancel₀ _ (pow10_pos _).ne'
  unfold shortDigits32
  simp only
  rw [hfl, h.rnd]
  split
  · exact ⟨_, rfl⟩
  · exact ⟨_, if_pos rfl⟩

theorem shortest32_rnd {f : ℚ} {n : Nat} {k : Int} (h : IsF32 f n k) :
    rnd32 (((shortestFrom32 f (dexp f) 200 1).1 : ℚ) * pow10 (shortestFrom32 f (dexp f) 200 1).2) = f := by
  refine shortestFrom32_sound h.gt 200 1 ⟨max 1 (dexp f + 149).toNat, by omega, ?_, shortDigits32_exact h (by omega)⟩
  have hlt : f < (10 : ℚ) ^ (39 : Int) := by
    have h1 : f < pow2 128 := by
      rw [h.eq]
      have hk := pow2_mono h.hi
      have hn : (n : ℚ) < 2 ^ 24 := by exact_mod_cast h.lt
      have h2 : pow2 128 = 2 ^ 24 * pow2 104 := by
        rw [show (128 : Int) = 24 + 104 by norm_num, pow2_add]; congr 1
      rw [h2]
      have := pow2_pos k
      calc (n : ℚ) * pow2 k < 2 ^ 24 * pow2 k := by exact mul_lt_mul_of_pos_right hn this
        _ ≤ _ := by exact mul_le_mul_of_nonneg_left hk (by positivity)
    rw [pow2_eq] at h1
    refine lt_trans h1 ?_
    norm_num
  obtain ⟨g1, _⟩ := dexp_spec f h.gt
  rw [pow10_eq] at g1
  have : dexp f - 1 < 39 := (zpow_lt_zpow_iff_right₀ (by norm_num : (1 : ℚ) < 10)).mp (lt_of_le_of_lt g1 hlt)
  omega

theorem shortest32_spec {f : ℚ} {n : Nat} {k : Int} (h : IsF32 f n k) :
    IntPart (shortest32 f).1 ∧ (shortest32 f).1.head? ≠ some 48 ∧
      rnd32 ((digitsVal (shortest32 f).1 : ℚ) * pow10 ((shortest32 f).2 - (shortest32 f).1.length)) = f := by
  have hr := shortest32_rnd h
  have hf := h.gt
  unfold shortest32
  generalize shortestFrom32 f (dexp f) 200 1 = p at hr
  obtain ⟨m, e⟩ := p
  simp only at hr ⊢
  have hm : m ≠ 0 := by
    rintro rfl
    simp [rnd32_zero] at hr
    linarith
  obtain ⟨h1, h2, h3⟩ := digits_spec hm e rfl
  exact ⟨h1, h2, by rw [h3]; exact hr⟩

theorem parse_jsonPos32 {f : ℚ} {n : Nat} {k : Int} (h : IsF32 f n k) :
    ∃ q, (∀ rest, Delim rest → parseNumber (jsonPos32 f ++ rest) = some (q, rest)) ∧ rnd32 q = f ∧ 0 < q := by
  obtain ⟨h1, h2, h3⟩ := shortest32_spec h
  have hf := h.gt
  refine ⟨_, fun rest hr => ?_, h3, ?_⟩
  · unfold jsonPos32
    simp only
    split
    · exact parse_fmtE h1 h2 hr
    · exact parse_fmtF h1 h2 hr
  · refine lt_of_le_of_ne (mul_nonneg (by positivity) (pow10_pos _).le) ?_
    intro hc; rw [← hc, rnd32_zero] at h3; linarith

theorem jsonPos32_start {f : ℚ} {n : Nat} {k : Int} (h : IsF32 f n k) : ∃ c r, jsonPos32 f = c :: r ∧ isDigit c = true := by
  obtain ⟨h1, _, _⟩ := shortest32_spec h
  unfold jsonPos32
  simp only
  split
  · exact fmtE_start h1
  · exact fmtF_start h1

theorem rnd32_neg {x : ℚ} (hx : 0 < x) : rnd32 (-x) = -rnd32 x := by
  unfold rnd32
  rw [if_neg (by linarith), if_neg hx.ne', if_pos hx.le, if_neg (by linarith)]
  simp only [neg_neg]
  rw [neg_div, roundEven_neg]
  push_cast
  ring

/-- The value of a `float32`. -/
theorem reads_marshalF32 {bits : UInt32} {b : Bytes} (h : marshalF32 bits = some b) :
    ∃ q a, Reads b (.num q) 1 ∧ f32Abs bits = some a ∧ rnd32 q = if bits.toNat < 2 ^ 31 then a else -a := by
  unfold marshalF32 at h
  cases ha : f32Abs bits with
  | none => rw [ha] at h; cases h
  | some a =>
    rw [ha, Option.map_some, Option.some.injEq] at h
    by_cases h0 : a = 0
    · subst h0
      rw [if_pos rfl] at h
      have hz : IntPart [48] := ⟨by simp, by decide, fun _ => rfl⟩
      have hp : ∀ rest, Delim rest → parseNumber ([48] ++ rest) = some (0, rest) := fun rest hr => by
        rw [parseNumber_int hz hr]; rfl
      refine ⟨0, 0, ?_, rfl, by simp [rnd32_zero]⟩
      split at h
      · subst h
        exact Reads.num (c := 48) (r := []) rfl (.inr rfl) (fun rest hr => hp rest hr)
      · subst h
        refine Reads.num (c := 45) (r := [48]) rfl (.inl rfl) (fun rest hr => ?_)
        have := parseNumber_minus (t := [48] ++ rest) rfl rfl (hp rest hr)
        rw [neg_zero] at this
        exact this
    · obtain ⟨n, k, hf⟩ := f32Abs_form ha h0
      rw [if_neg h0] at h
      obtain ⟨q, hq, hr, hpos⟩ := parse_jsonPos32 hf
      obtain ⟨c, r, h1, h2⟩ := jsonPos32_start hf
      split at h
      · subst h
        refine ⟨q, a, Reads.num (c := c) (r := r) (by rw [List.nil_append]; exact h1) (.inr h2) (fun rest hr => ?_), rfl, ?_⟩
        · rw [List.nil_append]; exact hq rest hr
        · rw [if_pos (by assumption)]; exact hr
      · subst h
        refine ⟨-q, a, Reads.num (c := 45) (r := jsonPos32 a) rfl (.inl rfl) (fun rest hr => ?_), rfl, ?_⟩
        · have := hq rest hr
          rw [h1] at this
          rw [h1]
          exact parseNumber_minus (c := c) (r := r ++ rest) rfl h2 this
        · rw [if_neg (by assumption), rnd32_neg hpos, hr]

theorem f32Bits_pos {a : ℚ} (ha : 0 < a) :
    f32Bits a = UInt32.ofNat ((ulp32 a + 149).toNat * 2 ^ 23 + (a / pow2 (ulp32 a)).floor.toNat) := by
  unfold f32Bits
  rw [if_neg ha.ne']
  simp only
  rw [if_pos ha.le, if_pos ha.le, Nat.add_zero]

theorem f32Bits_neg {a : ℚ} (ha : 0 < a) :
    f32Bits (-a) = UInt32.ofNat ((ulp32 a + 149).toNat * 2 ^ 23 + (a / pow2 (ulp32 a)).floor.toNat + 2 ^ 31) := by
  have hn : ¬ 0 ≤ -a := by linarith
  unfold f32Bits
  rw [if_neg (neg_ne_zero.mpr ha.ne')]
  simp only
  rw [if_neg hn, if_neg hn, neg_neg]

/-- The bits of a `float32` from its value. -/
theorem f32Bits_eq {bits : UInt32} {a : ℚ} (h : f32Abs bits = some a) (h0 : a ≠ 0) :
    f32Bits (if bits.toNat < 2 ^ 31 then a else -a) = bits := by
  obtain ⟨n, k, hf⟩ := f32Abs_form h h0
  have hpos := hf.gt
  have hdiv := hf.div
  have hb : bits.toNat < 2 ^ 32 := bits.toNat_lt
  have key : (ulp32 a + 149).toNat * 2 ^ 23 + (a / pow2 (ulp32 a)).floor.toNat = bits.toNat % 2 ^ 31 := by
    clear hf hdiv n k
    unfold f32Abs at h
    simp only at h
    have hm : bits.toNat % 2 ^ 23 < 2 ^ 23 := Nat.mod_lt _ (by norm_num)
    have he : bits.toNat / 2 ^ 23 % 256 < 256 := Nat.mod_lt _ (by norm_num)
    have hall : bits.toNat % 2 ^ 31 = bits.toNat / 2 ^ 23 % 256 * 2 ^ 23 + bits.toNat % 2 ^ 23 := by omega
    rw [hall]
    generalize bits.toNat % 2 ^ 23 = m at *
    generalize bits.toNat / 2 ^ 23 % 256 = e at *
    split at h
    · cases h
    · split at h
      · injection h with h
        have hm0 : m ≠ 0 := by rintro rfl; simp at h; exact h0 h.symm
        have hf : IsF32 a m (-149) := ⟨hm0, by omega, by omega, by omega, h.symm⟩
        have hu : ulp32 a = -149 := by have := hf.ulp_le; unfold ulp32 at *; omega
        rw [hf.div, hu, rat_floor_eq, Int.floor_natCast, Int.toNat_natCast]
        simp_all
      · injection h with h
        have hf : IsF32 a (m + 2 ^ 23) ((e : Int) - 150) := ⟨by omega, by omega, by omega, by omega, h.symm⟩
        have hu : ulp32 a = (e : Int) - 150 := by
          have hi : ilog2 a = (e : Int) - 127 := by
            have e1 : pow2 ((e : Int) - 127) = 2 ^ 23 * pow2 ((e : Int) - 150) := by
              rw [show (e : Int) - 127 = 23 + (e - 150) by ring, pow2_add]; congr 1
            have e2 : pow2 ((e : Int) - 127 + 1) = 2 ^ 24 * pow2 ((e : Int) - 150) := by
              rw [show (e : Int) - 127 + 1 = 24 + (e - 150) by ring, pow2_add]; congr 1
            refine ilog2_unique hpos ?_ ?_
            · rw [e1, hf.eq]
              refine mul_le_mul_of_nonneg_right ?_ (pow2_pos _).le
              push_cast
              have : (0 : ℚ) ≤ m := by positivity
              linarith
            · rw [e2, hf.eq]
              refine mul_lt_mul_of_pos_right ?_ (pow2_pos _)
              exact_mod_cast hf.lt
          unfold ulp32
          omega
        rw [hf.div, hu, rat_floor_eq, Int.floor_natCast, Int.toNat_natCast]
        simp only [sub_self, Int.toNat_zero, pow_zero, mul_one]
        rw [show ((e : Int) - 150 + 149).toNat = e - 1 by omega]
        omega
  split
  · rename_i hneg
    rw [f32Bits_pos hpos, key]
    apply UInt32.toNat_inj.mp
    rw [UInt32.toNat_ofNat']
    omega
  · rename_i hneg
    rw [f32Bits_neg hpos, key]
    apply UInt32.toNat_inj.mp
    rw [UInt32.toNat_ofNat']
    omega

theorem bits_split {bits : UInt32} (hm : bits.toNat % 2 ^ 23 = 0) (he : bits.toNat / 2 ^ 23 % 256 = 0) : bits = 0 ∨ bits = 0x80000000 := by
  have hb : bits.toNat < 2 ^ 32 := bits.toNat_lt
  have : bits.toNat = 0 ∨ bits.toNat = 2147483648 := by omega
  rcases this with h | h
  · left; exact UInt32.toNat_inj.mp h
  · right; exact UInt32.toNat_inj.mp h

theorem f32Abs_zero {bits : UInt32} (h : f32Abs bits = some 0) : bits = 0 ∨ bits = 0x80000000 := by
  unfold f32Abs at h
  simp only at h
  split at h
  · cases h
  · split at h
    · rename_i he
      injection h with h
      have h2 := (pow2_pos (-149)).ne'
      rcases mul_eq_zero.mp h with h | h
      · exact bits_split (Nat.cast_eq_zero.mp h) he
      · exact absurd h h2
    · injection h with h
      have h2 := (pow2_pos ((((bits.toNat / 2 ^ 23 % 256 : Nat)) : Int) - 150)).ne'
      exfalso
      rcases mul_eq_zero.mp h with h | h
      · exact absurd (Nat.cast_eq_zero.mp h) (Nat.ne_of_gt (Nat.add_pos_right _ (Nat.two_pow_pos 23)))
      · exact absurd h h2

/-- A `float32` is read back, but for the sign of zero. -/
theorem asF32_marshal {bits : UInt32} {b : Bytes} (h : marshalF32 bits = some b) :
    ∃ q, Reads b (.num q) 1 ∧ (Value.num q).asF32 = some (if bits = 0x80000000 then 0 else bits) := by
  obtain ⟨q, a, h1, h2, h3⟩ := reads_marshalF32 h
  refine ⟨q, h1, ?_⟩
  unfold Value.asF32
  simp only
  rw [h3]
  by_cases h0 : a = 0
  · subst h0
    rcases f32Abs_zero h2 with rfl | rfl <;> simp [f32Bits]
  · rw [f32Bits_eq h2 h0, if_neg]
    rintro rfl
    apply h0
    have : f32Abs 0x80000000 = some 0 := by decide +kernel
    rw [this] at h2
    injection h2 with h2
    exact h2.symm

end Egts
