import Verif.Model.F64
import Mathlib.Data.Rat.Floor
import Mathlib.Algebra.Order.Field.Power
import Mathlib.Tactic.Linarith
import Mathlib.Tactic.Positivity
import Mathlib.Tactic.FieldSimp
import Mathlib.Tactic.Ring
import Mathlib.Tactic.NormNum
import Mathlib.Tactic.SplitIfs

/-! # Rounding lemmas for the double model -/

namespace Egts

theorem pow2_eq (e : Int) : pow2 e = (2 : ℚ) ^ e := by
  cases e with
  | ofNat n => simp [pow2]
  | negSucc n => simp [pow2, zpow_negSucc]

theorem pow2_pos (e : Int) : 0 < pow2 e := by rw [pow2_eq]; positivity

theorem pow2_add (a b : Int) : pow2 (a + b) = pow2 a * pow2 b := by
  simp only [pow2_eq]; exact zpow_add₀ (by norm_num) a b

theorem pow2_mono {a b : Int} (h : a ≤ b) : pow2 a ≤ pow2 b := by
  simp only [pow2_eq]; exact zpow_le_zpow_right₀ (by norm_num) h

theorem log2_bounds (n : Nat) (h : n ≠ 0) : 2 ^ n.log2 ≤ n ∧ n < 2 ^ (n.log2 + 1) :=
  ⟨Nat.log2_self_le h, Nat.lt_log2_self⟩

theorem ilog2_spec (a : ℚ) (ha : 0 < a) : pow2 (ilog2 a) ≤ a ∧ a < pow2 (ilog2 a + 1) := by
  have hnum : 0 < a.num := Rat.num_pos.mpr ha
  have hn0 : a.num.natAbs ≠ 0 := by omega
  have hd0 : a.den ≠ 0 := a.den_nz
  obtain ⟨n1, n2⟩ := log2_bounds _ hn0
  obtain ⟨d1, d2⟩ := log2_bounds _ hd0
  have hae : a = (a.num.natAbs : ℚ) / (a.den : ℚ) := by
    conv_lhs => rw [← Rat.num_div_den a]
    congr 1
    have : ((a.num.natAbs : ℤ) : ℚ) = (a.num : ℚ) := by
      rw [Int.natAbs_of_nonneg hnum.le]
    rw [← this]; simp
  set N := a.num.natAbs
  set D := a.den
  have hDp : (0 : ℚ) < D := by exact_mod_cast Nat.pos_of_ne_zero hd0
  have n1' : (2 : ℚ) ^ N.log2 ≤ N := by exact_mod_cast n1
  have n2' : (N : ℚ) < 2 ^ (N.log2 + 1) := by exact_mod_cast n2
  have d1' : (2 : ℚ) ^ D.log2 ≤ D := by exact_mod_cast d1
  have d2' : (D : ℚ) < 2 ^ (D.log2 + 1) := by exact_mod_cast d2
  have hk : pow2 ((N.log2 : Int) - (D.log2 : Int)) = (2 : ℚ) ^ N.log2 / 2 ^ D.log2 := by
    rw [pow2_eq, zpow_sub₀ (by norm_num)]; simp
  have hlow : pow2 ((N.log2 : Int) - (D.log2 : Int) - 1) ≤ a := by
    rw [sub_eq_add_neg, pow2_add, hk, hae]
    have : pow2 (-1) = 1 / 2 := by rw [pow2_eq]; norm_num
    rw [this, div_mul_div_comm, div_le_div_iff₀ (by positivity) hDp]
    have : (2 : ℚ) ^ (D.log2 + 1) = 2 ^ D.log2 * 2 := pow_succ _ _
    nlinarith [pow_pos (show (0 : ℚ) < 2 by norm_num) N.log2]
  have hhigh : a < pow2 ((N.log2 : Int) - (D.log2 : Int) + 1) := by
    rw [pow2_add, hk, hae]
    have h1 : pow2 1 = 2 := by rw [pow2_eq]; norm_num
    rw [h1, div_mul_eq_mul_div, div_lt_div_iff₀ hDp (by positivity)]
    have : (2 : ℚ) ^ (N.log2 + 1) = 2 ^ N.log2 * 2 := pow_succ _ _
    nlinarith [pow_pos (show (0 : ℚ) < 2 by norm_num) N.log2, pow_pos (show (0 : ℚ) < 2 by norm_num) D.log2]
  unfold ilog2
  simp only
  split
  · exact ⟨by assumption, hhigh⟩
  · refine ⟨hlow, ?_⟩
    rw [sub_add_cancel]
    push Not at *
    assumption

theorem rat_floor_eq (q : ℚ) : q.floor = ⌊q⌋ := rfl

theorem roundEven_cases (q : ℚ) :
    (roundEven q = q.floor ∧ q - (q.floor : ℚ) ≤ 1 / 2) ∨
    (roundEven q = q.floor + 1 ∧ 1 / 2 ≤ q - (q.floor : ℚ)) := by
  unfold roundEven
  simp only
  split
  · left; exact ⟨rfl, le_of_lt ‹_›⟩
  · rename_i h1
    have h1' := not_lt.mp h1
    split
    · right; exact ⟨rfl, h1'⟩
    · rename_i h2
      split
      · left; exact ⟨rfl, not_lt.mp h2⟩
      · right; exact ⟨rfl, h1'⟩

theorem roundEven_err (q : ℚ) : |(roundEven q : ℚ) - q| ≤ 1 / 2 := by
  have h1 := Int.floor_le q
  have h2 := Int.lt_floor_add_one q
  rw [← rat_floor_eq] at h1 h2
  rcases roundEven_cases q with ⟨h, h3⟩ | ⟨h, h3⟩ <;> rw [h] <;> push_cast <;> rw [abs_le] <;>
    constructor <;> linarith

theorem roundEven_int (n : Int) : roundEven (n : ℚ) = n := by
  unfold roundEven
  simp [rat_floor_eq]

theorem rnd_err (x : ℚ) : |rnd x - x| ≤ pow2 (-53) * |x| := by
  unfold rnd
  split
  · subst x; simp
  · rename_i hx
    have habs : (if 0 ≤ x then x else -x) = |x| := by
      split
      · rw [abs_of_nonneg (by assumption)]
      · rw [abs_of_neg (by linarith)]
    simp only [habs]
    have hpos : 0 < |x| := abs_pos.mpr hx
    obtain ⟨h1, _⟩ := ilog2_spec _ hpos
    set u := pow2 (ilog2 |x| - 52) with hu
    have hup : 0 < u := pow2_pos _
    have e := roundEven_err (x / u)
    have : (roundEven (x / u) : ℚ) * u - x = ((roundEven (x / u) : ℚ) - x / u) * u := by
      field_simp
    rw [this, abs_mul, abs_of_pos hup]
    have hu2 : u / 2 = pow2 (-53) * pow2 (ilog2 |x|) := by
      rw [hu, ← pow2_add, show (-53 + ilog2 |x|) = (ilog2 |x| - 52) + (-1) by ring, pow2_add _ (-1)]
      have : pow2 (-1) = 1 / 2 := by rw [pow2_eq]; norm_num
      rw [this]; ring
    calc _ ≤ (1 / 2) * u := by gcongr
      _ = u / 2 := by ring
      _ = pow2 (-53) * pow2 (ilog2 |x|) := hu2
      _ ≤ _ := by have := pow2_pos (-53); gcongr

/-- Integers below 2^53 are doubles. -/
theorem rnd_nat (n : Nat) (h : n < 2 ^ 53) : rnd (n : ℚ) = n := by
  unfold rnd
  split
  · rename_i h0; rw [h0]
  · rename_i h0
    have hn : (0 : ℚ) ≤ n := by positivity
    simp only [hn, if_true]
    have hpos : (0 : ℚ) < n := lt_of_le_of_ne hn (Ne.symm h0)
    obtain ⟨h1, _⟩ := ilog2_spec _ hpos
    have hlt : (n : ℚ) < pow2 53 := by rw [pow2_eq]; exact_mod_cast h
    have hle : ilog2 (n : ℚ) ≤ 52 := by
      by_contra hc
      have : pow2 53 ≤ pow2 (ilog2 (n : ℚ)) := pow2_mono (by omega)
      linarith
    obtain ⟨k, hk⟩ : ∃ k : Nat, ilog2 (n : ℚ) - 52 = -(k : Int) := ⟨(52 - ilog2 (n : ℚ)).toNat, by omega⟩
    rw [hk]
    have hinv : (n : ℚ) / pow2 (-(k : Int)) = ((n * 2 ^ k : Nat) : Int) := by
      rw [pow2_eq, zpow_neg, div_inv_eq_mul]; push_cast; simp
    rw [hinv, roundEven_int]
    rw [← hinv, div_mul_cancel₀]
    exact (pow2_pos _).ne'

theorem rnd_zero : rnd 0 = 0 := by simp [rnd]

/-- `rnd` as a relative error. -/
theorem rnd_rel (x : ℚ) : ∃ e : ℚ, |e| ≤ pow2 (-53) ∧ rnd x = x * (1 + e) := by
  by_cases hx : x = 0
  · exact ⟨0, by simpa using (pow2_pos _).le, by simp [hx, rnd_zero]⟩
  · refine ⟨(rnd x - x) / x, ?_, by field_simp; ring⟩
    rw [abs_div, div_le_iff₀ (abs_pos.mpr hx)]
    exact rnd_err x

theorem pow2_m53 : pow2 (-53) = 1 / 9007199254740992 := by rw [pow2_eq]; norm_num

theorem toU32_eq (env : Env) (f : ℚ) (n : Nat) (h1 : (n : ℚ) ≤ f) (h2 : f < n + 1) (hn : n < 4294967296) :
    env.toU32 f = UInt32.ofNat n := by
  have h0 : 0 ≤ f := le_trans (by positivity) h1
  have h3 : f < 4294967296 := by
    have : (n : ℚ) + 1 ≤ 4294967296 := by exact_mod_cast hn
    linarith
  have hf : f.floor = (n : Int) := by
    rw [rat_floor_eq, Int.floor_eq_iff]; exact ⟨by exact_mod_cast h1, by exact_mod_cast h2⟩
  unfold Env.toU32
  rw [if_pos ⟨h0, h3⟩, hf]; rfl

/-- Seconds since the epoch survive. -/
theorem encNavTime_rt (env : Env) (s : Nat) (h : s < 2 ^ 32) :
    encNavTime env (timeOffset + (s : Int) * 1000000000) = UInt32.ofNat s := by
  have hs : GoTime.sub (timeOffset + (s : Int) * 1000000000) timeOffset = (s : Int) * 1000000000 := by
    unfold GoTime.sub
    rw [show timeOffset + (s : Int) * 1000000000 - timeOffset = (s : Int) * 1000000000 by
      show (_ : Int) = _; ring]
    omega
  unfold encNavTime durSeconds
  rw [hs, Int.mul_tdiv_cancel _ (by norm_num), Int.mul_tmod_left]
  have h1 : rnd ((s : Int) : ℚ) = s := by
    rw [Int.cast_natCast]; exact rnd_nat s (by omega)
  simp only [Int.cast_zero, zero_div, rnd_zero, add_zero, h1]
  rw [rnd_nat s (by omega)]
  exact toU32_eq env s s le_rfl (by linarith) (by omega)

theorem rel_comb {e f α β : ℚ} (h1 : |e| ≤ α) (h2 : |f| ≤ β) :
    |(1 + e) * (1 + f) - 1| ≤ α + β + α * β := by
  have : (1 + e) * (1 + f) - 1 = e + f + e * f := by ring
  rw [this]
  have hα : 0 ≤ α := le_trans (abs_nonneg _) h1
  calc |e + f + e * f| ≤ |e + f| + |e * f| := abs_add_le _ _
    _ ≤ |e| + |f| + |e| * |f| := by rw [abs_mul]; have := abs_add_le e f; linarith
    _ ≤ _ := by gcongr

/-- Up to three nested relative errors on a number up to 2^32. -/
theorem rel3 {a e1 e2 e3 : ℚ} (ha : 0 ≤ a) (ha' : a ≤ 4294967296) (h1 : |e1| ≤ pow2 (-53)) (h2 : |e2| ≤ pow2 (-53))
    (h3 : |e3| ≤ pow2 (-53)) :
    |a * ((1 + e1) * (1 + e2) * (1 + e3)) - a| ≤ 1 / 524288 := by
  have c1 := rel_comb h1 h2
  have c2 := rel_comb c1 h3
  rw [pow2_m53] at c2
  have e : (1 + ((1 + e1) * (1 + e2) - 1)) * (1 + e3) - 1 = (1 + e1) * (1 + e2) * (1 + e3) - 1 := by ring
  rw [e] at c2
  have : a * ((1 + e1) * (1 + e2) * (1 + e3)) - a = a * ((1 + e1) * (1 + e2) * (1 + e3) - 1) := by ring
  rw [this, abs_mul, abs_of_nonneg ha]
  calc _ ≤ 4294967296 * _ := mul_le_mul ha' c2 (abs_nonneg _) (by norm_num)
    _ ≤ _ := by norm_num

theorem factor_nonneg {e : ℚ} (h : |e| ≤ pow2 (-53)) : 0 ≤ 1 + e := by
  rw [pow2_m53, abs_le] at h; linarith [h.1]

/-- Re-encoding: `v` scaled by `c` degrees. -/
theorem reenc (env : Env) (c : ℚ) (hc : 0 < c) (cn : Nat) (hcn : (cn : ℚ) = c) (hcb : cn ≤ 2 ^ 20) (v : UInt32) :
    let x := rnd (rnd ((v.toNat : ℚ) * c) / 4294967295)
    env.toU32 (rnd (rnd (x / c) * 4294967295)) = v ∨
      (v ≠ 0 ∧ env.toU32 (rnd (rnd (x / c) * 4294967295)) = v - 1) := by
  intro x
  have hv := UInt32.toNat_lt v
  have hex : rnd ((v.toNat : ℚ) * c) = (v.toNat : ℚ) * c := by
    rw [← hcn, ← Nat.cast_mul]
    apply rnd_nat
    calc v.toNat * cn ≤ 2 ^ 32 * 2 ^ 20 := Nat.mul_le_mul (by omega) hcb
      _ < 2 ^ 53 := by norm_num
  obtain ⟨e1, b1, r1⟩ := rnd_rel (rnd ((v.toNat : ℚ) * c) / 4294967295)
  obtain ⟨e2, b2, r2⟩ := rnd_rel (x / c)
  obtain ⟨e3, b3, r3⟩ := rnd_rel (rnd (x / c) * 4294967295)
  have hval : rnd (rnd (x / c) * 4294967295) = (v.toNat : ℚ) * ((1 + e1) * (1 + e2) * (1 + e3)) := by
    rw [r3, r2, show x = _ from r1, hex]; field_simp
  have hv' : (v.toNat : ℚ) ≤ 4294967296 := by exact_mod_cast hv.le
  have hb := rel3 (a := (v.toNat : ℚ)) (by positivity) hv' b1 b2 b3
  rw [abs_le] at hb
  rw [hval]
  set y := (v.toNat : ℚ) * ((1 + e1) * (1 + e2) * (1 + e3)) with hy
  by_cases hle : (v.toNat : ℚ) ≤ y
  · left
    rw [toU32_eq env y v.toNat hle (by linarith [hb.2]) (by omega), UInt32.ofNat_toNat]
  · right
    push Not at hle
    have hv0 : v ≠ 0 := by
      rintro rfl
      simp [hy] at hle
    have hvn : 1 ≤ v.toNat := by
      rcases Nat.eq_zero_or_pos v.toNat with h | h
      · exact absurd (UInt32.toNat_inj.mp (by simpa using h)) hv0
      · exact h
    refine ⟨hv0, ?_⟩
    have : ((v.toNat - 1 : Nat) : ℚ) = (v.toNat : ℚ) - 1 := by push_cast [Nat.cast_sub hvn]; ring
    rw [toU32_eq env y (v.toNat - 1) (by rw [this]; linarith [hb.1]) (by rw [this]; linarith) (by omega)]
    apply UInt32.toNat_inj.mp
    rw [UInt32.toNat_sub_of_le]
    · simp; omega
    · rw [UInt32.le_iff_toNat_le]; simpa using hvn

/-- Accuracy of encode-then-decode for a coordinate `x` in `[0, c]`. -/
theorem accuracy (env : Env) (c : ℚ) (hc : 0 < c) (cn : Nat) (hcn : (cn : ℚ) = c) (hcb : cn ≤ 2 ^ 20) (x : ℚ)
    (h0 : 0 ≤ x) (h1 : x ≤ c) :
    let v := env.toU32 (rnd (rnd (x / c) * 4294967295))
    |rnd (rnd ((v.toNat : ℚ) * c) / 4294967295) - x| ≤ c * (1 + 1 / 262144) / 4294967295 := by
  intro v
  obtain ⟨e1, b1, r1⟩ := rnd_rel (x / c)
  obtain ⟨e2, b2, r2⟩ := rnd_rel (rnd (x / c) * 4294967295)
  set a := x / c * 4294967295 with ha
  have hac : 0 ≤ a := by positivity
  have hxc : x / c ≤ 1 := by rw [div_le_one hc]; exact h1
  have hau : a ≤ 4294967295 := by rw [ha]; nlinarith
  have hval : rnd (rnd (x / c) * 4294967295) = a * ((1 + e1) * (1 + e2) * (1 + 0)) := by
    rw [r2, r1, ha]; ring
  have hb := rel3 (a := a) hac (by linarith) b1 b2 (e3 := 0) (by simpa using (pow2_pos _).le)
  set y := a * ((1 + e1) * (1 + e2) * (1 + 0)) with hy
  have hy0 : 0 ≤ y := by
    have := factor_nonneg b1; have := factor_nonneg b2; positivity
  rw [abs_le] at hb
  have hfl1 := Int.floor_le y
  have hfl2 := Int.lt_floor_add_one y
  have hfl0 : 0 ≤ ⌊y⌋ := Int.floor_nonneg.mpr hy0
  obtain ⟨n, hn⟩ : ∃ n : Nat, ⌊y⌋ = (n : Int) := ⟨⌊y⌋.toNat, by omega⟩
  rw [hn] at hfl1 hfl2
  have hnlt : n < 4294967296 := by
    have : (n : ℚ) < 4294967296 := by
      have : ((n : Int) : ℚ) = n := by simp
      rw [this] at hfl1; linarith [hb.2]
    exact_mod_cast this
  have hvn : v = UInt32.ofNat n := by
    show env.toU32 _ = _
    rw [hval]; exact toU32_eq env y n (by exact_mod_cast hfl1) (by exact_mod_cast hfl2) hnlt
  have hvt : v.toNat = n := by rw [hvn, UInt32.toNat_ofNat']; exact Nat.mod_eq_of_lt hnlt
  rw [hvt]
  have hex : rnd ((n : ℚ) * c) = (n : ℚ) * c := by
    rw [← hcn, ← Nat.cast_mul]
    apply rnd_nat
    calc n * cn ≤ 2 ^ 32 * 2 ^ 20 := Nat.mul_le_mul (by omega) hcb
      _ < 2 ^ 53 := by norm_num
  obtain ⟨e4, b4, r4⟩ := rnd_rel ((n : ℚ) * c / 4294967295)
  rw [hex, r4]
  have hn' : (n : ℚ) ≤ 4294967296 := by exact_mod_cast hnlt.le
  have hb4 := rel3 (a := (n : ℚ)) (by positivity) hn' b4 (e2 := 0) (e3 := 0) (by simpa using (pow2_pos _).le) (by simpa using (pow2_pos _).le)
  have e0 : (n : ℚ) * c / 4294967295 * (1 + e4) - x
      = ((n : ℚ) * ((1 + e4) * (1 + 0) * (1 + 0)) - a) * c / 4294967295 := by
    rw [ha]; field_simp; ring
  rw [e0, abs_div, abs_mul, abs_of_pos hc, abs_of_pos (show (0 : ℚ) < 4294967295 by norm_num)]
  have : |(n : ℚ) * ((1 + e4) * (1 + 0) * (1 + 0)) - a| ≤ 1 + 1 / 262144 := by
    rw [abs_le] at hb4 ⊢
    have h1' : (n : ℚ) ≤ y := by exact_mod_cast hfl1
    have h2' : y < n + 1 := by exact_mod_cast hfl2
    constructor
    · linarith [hb4.1, hb.1]
    · linarith [hb4.2, hb.2]
  rw [div_le_div_iff_of_pos_right (by norm_num)]
  nlinarith

end Egts
