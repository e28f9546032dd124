import Verif.Model.Double
import Verif.Proofs.Parse
import Verif.Proofs.Machines
import Verif.Proofs.Seconds

/-! # The calculations with coordinates in all of `float64` (C112) -/

namespace Egts

/-- From here on numbers are rounded to infinity. -/
abbrev overflow64 : ℚ := pow2 1024 - pow2 970

theorem overflow64_ge : pow2 1023 ≤ overflow64 := by
  have h1 : pow2 1024 = pow2 1023 * pow2 1 := by rw [← pow2_add]; rfl
  have h2 : pow2 1 = 2 := by rw [pow2_eq]; norm_num
  have h3 : pow2 970 ≤ pow2 1023 := pow2_mono (by norm_num)
  unfold overflow64
  rw [h1, h2]; linarith

theorem pow2_100 : pow2 100 = 1267650600228229401496703205376 := by rw [pow2_eq]; norm_num

theorem overflow64_big : (1000000000000000000000000000000 : ℚ) < overflow64 := by
  have h1 := overflow64_ge
  have h2 : pow2 100 ≤ pow2 1023 := pow2_mono (by norm_num)
  rw [pow2_100] at h2
  linarith

theorem rnd_bounds (q : ℚ) : |q| / 2 ≤ |rnd q| ∧ |rnd q| ≤ 2 * |q| := by
  obtain ⟨e, b, r⟩ := rnd_rel q
  rw [pow2_m53, abs_le] at b
  have h1 : |1 + e| = 1 + e := abs_of_pos (by linarith)
  rw [r, abs_mul, h1]
  have := abs_nonneg q
  constructor <;> nlinarith

theorem rnd_sign (q : ℚ) : decide (rnd q < 0) = decide (q < 0) := by
  rcases lt_trichotomy q 0 with h | h | h
  · have := rnd_pos (x := -q) (by linarith)
    rw [rnd_neg'] at this
    simp [h, show rnd q < 0 by linarith]
  · subst h; rw [rnd_zero]
  · have := rnd_pos h
    simp [not_lt.mpr h.le, not_lt.mpr this.le]

theorem rnd_overflow64_pos {z : ℚ} (hz : 0 < z) (h : overflow64 ≤ z) : overflow64 ≤ rnd z := by
  obtain ⟨g1, g2⟩ := ilog2_spec z hz
  have h970 := pow2_pos 970
  by_cases hL : 1024 ≤ ilog2 z
  · obtain ⟨n, n1, n2, e⟩ := rnd_form hz
    rw [e]
    have e1 : pow2 1024 = pow2 52 * pow2 972 := by rw [← pow2_add]; rfl
    have e2 : pow2 52 = ((2 ^ 52 : Nat) : ℚ) := by rw [pow2_eq]; norm_num
    have e3 : pow2 972 ≤ pow2 (ilog2 z - 52) := pow2_mono (by omega)
    have e4 : ((2 ^ 52 : Nat) : ℚ) ≤ n := by exact_mod_cast n1
    have : pow2 1024 ≤ n * pow2 (ilog2 z - 52) := by
      rw [e1, e2]
      exact mul_le_mul e4 e3 (pow2_pos _).le (by positivity)
    unfold overflow64
    linarith
  · have hL' : ilog2 z = 1023 := by
      by_contra hne
      have : ilog2 z + 1 ≤ 1023 := by omega
      have h1 := pow2_mono this
      have h2 := overflow64_ge
      linarith
    rw [rnd_pos_eq hz, hL']
    have e0 : (1023 : Int) - 52 = 971 := by norm_num
    rw [e0]
    have p := pow2_pos 971
    have e1 : pow2 1024 = 9007199254740992 * pow2 971 := by
      rw [show (1024 : Int) = 53 + 971 by norm_num, pow2_add, pow2_eq 53]; norm_num
    have e2 : pow2 971 = 2 * pow2 970 := by
      rw [show (971 : Int) = 1 + 970 by norm_num, pow2_add, pow2_eq 1]; norm_num
    have hq : (9007199254740991 : ℚ) + 1 / 2 ≤ z / pow2 971 := by
      rw [le_div_iff₀ p]
      unfold overflow64 at h
      linarith
    have hr : (9007199254740992 : Int) ≤ roundEven (z / pow2 971) := by
      rcases hq.eq_or_lt with hq | hq
      · rw [roundEven_half (n := 9007199254740991) (by rw [← hq]; norm_num)]
        norm_num
      · by_contra hlt
        have h1 := roundEven_err (z / pow2 971)
        rw [abs_le] at h1
        have h2 : (roundEven (z / pow2 971) : ℚ) ≤ 9007199254740991 := by
          have : roundEven (z / pow2 971) ≤ 9007199254740991 := by omega
          exact_mod_cast this
        linarith [h1.1]
    have hr' : (9007199254740992 : ℚ) ≤ (roundEven (z / pow2 971) : ℚ) := by exact_mod_cast hr
    have : 9007199254740992 * pow2 971 ≤ (roundEven (z / pow2 971) : ℚ) * pow2 971 := mul_le_mul_of_nonneg_right hr' p.le
    unfold overflow64
    linarith

theorem rnd_overflow64 {z : ℚ} (h : overflow64 ≤ |z|) : overflow64 ≤ |rnd z| := by
  have hb := overflow64_big
  rcases lt_trichotomy z 0 with h0 | h0 | h0
  · rw [abs_of_neg h0] at h
    have := rnd_overflow64_pos (z := -z) (by linarith) h
    rw [rnd_neg'] at this
    exact this.trans (neg_le_abs _)
  · subst h0; rw [abs_zero] at h; linarith
  · rw [abs_of_pos h0] at h
    exact (rnd_overflow64_pos h0 h).trans (le_abs_self _)

theorem nearest64_normal {q : ℚ} (h0 : pow2 (-53) ≤ |q|) (h1 : |q| < overflow64) : nearest64 q = some (rnd q) := by
  unfold nearest64
  simp only [ite_abs]
  rw [if_neg (not_le.mpr h1), if_neg]
  have : pow2 (-1022) ≤ pow2 (-53) := pow2_mono (by norm_num)
  linarith

theorem nearest64_huge {q : ℚ} (h1 : overflow64 ≤ |q|) : nearest64 q = none := by
  unfold nearest64
  simp only [ite_abs]
  rw [if_pos h1]

theorem rnd_lt_overflow64 {q : ℚ} (h0 : pow2 (-53) ≤ |q|) (h1 : |q| < overflow64) : |rnd q| < overflow64 := by
  obtain ⟨n, k, hn, _, hk, e⟩ := (nearest64_some (nearest64_normal h0 h1)).1
  rw [e, ← pow2_eq, abs_mul, abs_of_pos (pow2_pos k)]
  have e1 : pow2 1024 = 9007199254740992 * pow2 971 := by
    rw [show (1024 : Int) = 53 + 971 by norm_num, pow2_add, pow2_eq 53]; norm_num
  have e2 : pow2 971 = 2 * pow2 970 := by
    rw [show (971 : Int) = 1 + 970 by norm_num, pow2_add, pow2_eq 1]; norm_num
  have e3 : pow2 k ≤ pow2 971 := pow2_mono hk
  have e4 : |(n : ℚ)| ≤ 9007199254740991 := by
    have : |n| ≤ 9007199254740991 := by have : |n| < 9007199254740992 := hn; omega
    exact_mod_cast this
  have := mul_le_mul e4 e3 (pow2_pos k).le (by norm_num)
  have := pow2_pos 970
  unfold overflow64
  linarith

theorem round_normal {q : ℚ} (s : Bool) (h0 : pow2 (-53) ≤ |q|) (h1 : |q| < overflow64) : Double.round s q = .num (rnd q) := by
  unfold Double.round
  rw [nearest64_normal h0 h1]
  have := (rnd_bounds q).1
  have h2 := pow2_pos (-53)
  simp only
  rw [if_neg]
  intro h
  rw [h, abs_zero] at this
  linarith

theorem round_huge {q : ℚ} (s : Bool) (h1 : overflow64 ≤ |q|) : Double.round s q = .inf s := by
  unfold Double.round
  rw [nearest64_huge h1]

theorem round_zero (s : Bool) : Double.round s 0 = .zero s := by
  have h : nearest64 0 = some 0 := by
    have hb := overflow64_big
    unfold nearest64
    simp only [ite_abs, abs_zero, zero_div]
    rw [if_neg (by unfold overflow64 at hb; linarith), if_pos (pow2_pos _), show roundEven 0 = 0 from roundEven_int 0]
    simp
  unfold Double.round
  rw [h]
  simp

/-- Small numbers stay small. -/
theorem round_small {q : ℚ} (s : Bool) (h : |q| < 1) :
    Double.round s q = .negZero ∨ ∃ r, Double.round s q = .num r ∧ |r| ≤ 2 * |q| := by
  unfold Double.round
  cases e : nearest64 q with
  | none =>
    have := (nearest64_none q).mp e
    rw [← pow2_eq, ← pow2_eq] at this
    have h2 := overflow64_big
    unfold overflow64 at h2
    linarith
  | some x =>
    have h1 := (nearest64_some e).2 0 ⟨0, 0, by norm_num, by norm_num, by norm_num, by norm_num⟩
    rw [zero_sub, abs_neg] at h1
    have h2 : |x| ≤ 2 * |q| := by
      have := abs_sub_abs_le_abs_sub x q
      linarith
    simp only
    split
    · cases s
      · exact .inr ⟨0, rfl, by rw [abs_zero]; have := abs_nonneg q; linarith⟩
      · exact .inl rfl
    · exact .inr ⟨x, rfl, h2⟩

theorem num_mul (q : ℚ) {c : ℚ} (hc : 0 < c) : (Double.num q).mul (.num c) = .round (decide (q < 0)) (q * c) := by
  show Double.round (decide (q < 0) ^^ decide (c < 0)) (q * c) = _
  rw [decide_eq_false (not_lt.mpr hc.le), Bool.xor_false]

theorem num_div (q : ℚ) {c : ℚ} (hc : 0 < c) : (Double.num q).div (.num c) = .round (decide (q < 0)) (q / c) := by
  show (if decide (c = 0) = true then _ else Double.round (decide (q < 0) ^^ decide (c < 0)) (q / c)) = _
  rw [decide_eq_false (not_lt.mpr hc.le), Bool.xor_false, decide_eq_false hc.ne']
  rfl

theorem negZero_mul {c : ℚ} (hc : 0 < c) : Double.negZero.mul (.num c) = .negZero := by
  show Double.round (true ^^ decide (c < 0)) (0 * c) = _
  rw [decide_eq_false (not_lt.mpr hc.le), zero_mul, round_zero]
  rfl

theorem negZero_div {c : ℚ} (hc : 0 < c) : Double.negZero.div (.num c) = .negZero := by
  show (if decide (c = 0) = true then _ else Double.round (true ^^ decide (c < 0)) (0 / c)) = _
  rw [decide_eq_false (not_lt.mpr hc.le), decide_eq_false hc.ne', zero_div, round_zero]
  rfl

theorem inf_div (s : Bool) {c : ℚ} (hc : 0 < c) : (Double.inf s).div (.num c) = .inf s := by
  show Double.inf (s ^^ decide (c < 0)) = _
  rw [decide_eq_false (not_lt.mpr hc.le), Bool.xor_false]

theorem inf_mul (s : Bool) {c : ℚ} (hc : 0 < c) : (Double.inf s).mul (.num c) = .inf s := by
  show (if decide (c = 0) = true then Double.nan else Double.inf (s ^^ decide (c < 0))) = _
  rw [decide_eq_false (not_lt.mpr hc.le), Bool.xor_false, decide_eq_false hc.ne']
  rfl

theorem ofNat_floor_zero {r : ℚ} (h1 : r < 1) : UInt32.ofNat r.floor.toNat = 0 := by
  have : r.floor < 1 := by
    rw [rat_floor_eq, Int.floor_lt]; exact_mod_cast h1
  rw [show r.floor.toNat = 0 by omega]
  rfl

theorem toU32_small (cv : Double → UInt32) {r : ℚ} (h : |r| < 1) : (Double.num r).toU32 cv = 0 := by
  rw [abs_lt] at h
  show (if -1 < r ∧ r < 4294967296 then UInt32.ofNat r.floor.toNat else _) = _
  rw [if_pos ⟨h.1, by linarith⟩, ofNat_floor_zero h.2]

theorem env_small (cv : Double → UInt32) {r : ℚ} (h : |r| < 1) : (Env.ofDouble cv).toU32 r = 0 := by
  rw [abs_lt] at h
  unfold Env.toU32
  by_cases h0 : 0 ≤ r
  · rw [if_pos ⟨h0, by linarith⟩, ofNat_floor_zero h.2]
  · rw [if_neg (fun h => h0 h.1)]
    show (if -1 < r ∧ r < 0 then 0 else _) = _
    rw [if_pos ⟨h.1, by linarith⟩]

theorem toU32_num (cv : Double → UInt32) {r : ℚ} (h : |r| < overflow64) : (Double.num r).toU32 cv = (Env.ofDouble cv).toU32 r := by
  show (if -1 < r ∧ r < 4294967296 then UInt32.ofNat r.floor.toNat else cv (.num r)) = _
  unfold Env.toU32
  by_cases h0 : 0 ≤ r
  · by_cases h1 : r < 4294967296
    · rw [if_pos ⟨by linarith, h1⟩, if_pos ⟨h0, h1⟩]
    · rw [if_neg (fun h => h1 h.2), if_neg (fun h => h1 h.2)]
      show _ = (if -1 < r ∧ r < 0 then 0 else _)
      rw [if_neg (fun h => by linarith [h.2])]
      simp only [ite_abs]
      rw [if_neg (not_le.mpr h)]
  · rw [if_neg (fun h : 0 ≤ r ∧ _ => h0 h.1)]
    show _ = (if -1 < r ∧ r < 0 then 0 else _)
    by_cases h1 : -1 < r
    · rw [if_pos ⟨h1, by linarith⟩, if_pos ⟨h1, by linarith⟩, ofNat_floor_zero (by linarith)]
    · rw [if_neg (fun h => h1 h.1), if_neg (fun h => h1 h.1)]
      simp only [ite_abs]
      rw [if_neg (not_le.mpr h)]

theorem toU32_inf (cv : Double → UInt32) {r : ℚ} (h : overflow64 ≤ |r|) : (Env.ofDouble cv).toU32 r = cv (.inf (decide (r < 0))) := by
  have hb := overflow64_big
  unfold Env.toU32
  rw [if_neg (fun h' => by rw [abs_of_nonneg h'.1] at h; linarith [h'.2])]
  show (if -1 < r ∧ r < 0 then 0 else _) = _
  rw [if_neg (fun h' => by rw [abs_of_neg h'.2] at h; linarith [h'.1])]
  simp only [ite_abs]
  rw [if_pos h]

/-- The calculation with finite numbers. -/
theorem coord_finite (cv : Double → UInt32) {c x : ℚ} (hc : 2 ≤ c) (hc' : c ≤ 180) (hx : |x| < pow2 1024) :
    (((Double.num x).div (.num c)).mul (.num 4294967295)).toU32 cv = (Env.ofDouble cv).toU32 (rnd (rnd (x / c) * 4294967295)) := by
  have hc0 : 0 < c := by linarith
  have hy : |x / c| = |x| / c := by rw [abs_div, abs_of_pos hc0]
  have hx0 := abs_nonneg x
  have hb := overflow64_big
  rw [num_div x hc0]
  by_cases hs : |x| ≤ 1 / 10000000000
  · have y1 : |x / c| ≤ |x| / 2 := by
      rw [hy]; exact div_le_div_of_nonneg_left hx0 (by norm_num) hc
    have f1 := (rnd_bounds (x / c)).2
    have f2 := (rnd_bounds (rnd (x / c) * 4294967295)).2
    rw [abs_mul, abs_of_pos (show (0 : ℚ) < 4294967295 by norm_num)] at f2
    rw [env_small cv (by linarith)]
    rcases round_small (decide (x < 0)) (show |x / c| < 1 by linarith) with e | ⟨r, e, hr⟩
    · rw [e, negZero_mul (by norm_num)]; rfl
    · rw [e, num_mul r (by norm_num)]
      have hz : |r * 4294967295| = |r| * 4294967295 := by rw [abs_mul, abs_of_pos (show (0 : ℚ) < 4294967295 by norm_num)]
      rcases round_small (decide (r < 0)) (show |r * 4294967295| < 1 by rw [hz]; linarith) with e' | ⟨r', e', hr'⟩
      · rw [e']; rfl
      · rw [e']
        exact toU32_small cv (by rw [hz] at hr'; linarith)
  · have y1 : |x| / 180 ≤ |x / c| := by
      rw [hy]; exact div_le_div_of_nonneg_left hx0 hc0 hc'
    have y2 : |x / c| ≤ |x| / 2 := by
      rw [hy]; exact div_le_div_of_nonneg_left hx0 (by norm_num) hc
    have y3 : |x / c| < overflow64 := by
      have h1 : pow2 1024 = pow2 1023 * pow2 1 := by rw [← pow2_add]; rfl
      have h2 : pow2 1 = 2 := by rw [pow2_eq]; norm_num
      have := overflow64_ge
      rw [h1, h2] at hx
      linarith
    have y4 : pow2 (-53) ≤ |x / c| := by rw [pow2_m53]; linarith
    rw [round_normal _ y4 y3, num_mul _ (by norm_num)]
    have f1 := (rnd_bounds (x / c)).1
    have hz : |rnd (x / c) * 4294967295| = |rnd (x / c)| * 4294967295 := by
      rw [abs_mul, abs_of_pos (show (0 : ℚ) < 4294967295 by norm_num)]
    have z1 : pow2 (-53) ≤ |rnd (x / c) * 4294967295| := by rw [hz, pow2_m53]; linarith
    have sg : decide (rnd (x / c) < 0) = decide (rnd (x / c) * 4294967295 < 0) := by
      congr 1
      apply propext
      constructor <;> intro h <;> linarith
    rw [sg]
    generalize rnd (x / c) * 4294967295 = z at z1
    by_cases hl : |z| < overflow64
    · rw [round_normal _ z1 hl, toU32_num cv (rnd_lt_overflow64 z1 hl)]
    · have hl := not_lt.mp hl
      rw [round_huge _ hl, toU32_inf cv (rnd_overflow64 hl), rnd_sign]
      rfl

/-- The calculation of what has been received. -/
theorem coord_read {c : ℚ} (hc : 2 ≤ c) (hc' : c ≤ 180) (v : UInt32) :
    ((Double.num v.toNat).mul (.num c)).div (.num 4294967295) = .num (rnd (rnd ((v.toNat : ℚ) * c) / 4294967295)) := by
  have hv : v.toNat < 4294967296 := v.toNat_lt
  have hc0 : 0 < c := by linarith
  have hb := overflow64_big
  rw [num_mul _ hc0]
  rcases Nat.eq_zero_or_pos v.toNat with h0 | h0
  · rw [h0]
    simp only [Nat.cast_zero, zero_mul, rnd_zero, zero_div, lt_self_iff_false, decide_false]
    rw [round_zero]
    show (Double.num 0).div (.num 4294967295) = _
    rw [num_div _ (by norm_num), zero_div, round_zero]
    simp [Double.zero]
  · have v1 : (1 : ℚ) ≤ v.toNat := by exact_mod_cast h0
    have v2 : (v.toNat : ℚ) ≤ 4294967296 := by exact_mod_cast hv.le
    have w1 : 2 ≤ (v.toNat : ℚ) * c := by nlinarith
    have w2 : (v.toNat : ℚ) * c ≤ 4294967296 * 180 := by nlinarith
    have w3 : |(v.toNat : ℚ) * c| = v.toNat * c := abs_of_pos (by linarith)
    rw [round_normal _ (by rw [w3, pow2_m53]; linarith) (by rw [w3]; linarith), num_div _ (by norm_num)]
    have f := rnd_bounds ((v.toNat : ℚ) * c)
    rw [w3] at f
    have f3 : |rnd ((v.toNat : ℚ) * c) / 4294967295| = |rnd ((v.toNat : ℚ) * c)| / 4294967295 := by
      rw [abs_div, abs_of_pos (show (0 : ℚ) < 4294967295 by norm_num)]
    rw [round_normal _ (by rw [f3, pow2_m53]; linarith) (by rw [f3]; linarith)]

/-- Every number of 32 bits is what some coordinate is sent as. -/
theorem coord_onto (env : Env) {c : ℚ} (hc : 2 ≤ c) (v : UInt32) :
    ∃ q : ℚ, 0 ≤ q ∧ q ≤ c ∧ env.toU32 (rnd (rnd (q / c) * 4294967295)) = v := by
  have hv : v.toNat < 4294967296 := v.toNat_lt
  have hc0 : 0 < c := by linarith
  by_cases hm : v.toNat = 4294967295
  · refine ⟨c, hc0.le, le_rfl, ?_⟩
    rw [div_self hc0.ne', show rnd 1 = 1 by exact_mod_cast rnd_nat 1 (by norm_num), one_mul,
      show rnd 4294967295 = 4294967295 by exact_mod_cast rnd_nat 4294967295 (by norm_num),
      toU32_eq env _ 4294967295 (by norm_num) (by norm_num) (by norm_num)]
    rw [← hm]; exact UInt32.ofNat_toNat
  · have v2 : (v.toNat : ℚ) ≤ 4294967294 := by
      have : v.toNat ≤ 4294967294 := by omega
      exact_mod_cast this
    have v1 : (0 : ℚ) ≤ v.toNat := by positivity
    set w : ℚ := (v.toNat + 1 / 2) / 4294967295 with hw
    have w0 : 0 ≤ w := by positivity
    have w1 : w ≤ 1 := by rw [hw, div_le_one (by norm_num)]; linarith
    have w2 : w * 4294967295 = v.toNat + 1 / 2 := by rw [hw]; field_simp
    refine ⟨w * c, by positivity, by nlinarith, ?_⟩
    rw [mul_div_assoc, div_self hc0.ne', mul_one]
    obtain ⟨e, be, re⟩ := rnd_rel w
    rw [pow2_m53, abs_le] at be
    obtain ⟨g, bg, rg⟩ := rnd_rel (rnd w * 4294967295)
    rw [pow2_m53, abs_le] at bg
    rw [rg, re, show w * (1 + e) * 4294967295 * (1 + g) = (w * 4294967295) * ((1 + e) * (1 + g)) by ring, w2]
    have k1 : 1 - 1 / 1000000000000 ≤ (1 + e) * (1 + g) := by nlinarith
    have k2 : (1 + e) * (1 + g) ≤ 1 + 1 / 1000000000000 := by nlinarith
    have m1 : ((v.toNat : ℚ) + 1 / 2) * (1 - 1 / 1000000000000) ≤ (v.toNat + 1 / 2) * ((1 + e) * (1 + g)) :=
      mul_le_mul_of_nonneg_left k1 (by linarith)
    have m2 : ((v.toNat : ℚ) + 1 / 2) * ((1 + e) * (1 + g)) ≤ (v.toNat + 1 / 2) * (1 + 1 / 1000000000000) :=
      mul_le_mul_of_nonneg_left k2 (by linarith)
    rw [toU32_eq env _ v.toNat (by linarith) (by linarith) hv]
    exact UInt32.ofNat_toNat

/-! ## Texts -/

theorem commonPrefixLen_le (s p : Bytes) : commonPrefixLen s p ≤ s.length := by
  induction s generalizing p with
  | nil => simp [commonPrefixLen]
  | cons c s ih =>
    cases p with
    | nil => simp [commonPrefixLen]
    | cons d p =>
      unfold commonPrefixLen
      have := ih p
      split
      · simp; omega
      · simp

theorem commonPrefixLen_full (s p : Bytes) : commonPrefixLen s p = s.length ↔ s.map asciiLower = p.take s.length := by
  induction s generalizing p with
  | nil => simp [commonPrefixLen]
  | cons c s ih =>
    cases p with
    | nil => simp [commonPrefixLen]
    | cons d p =>
      unfold commonPrefixLen
      by_cases h : asciiLower c = d
      · rw [if_pos h]; simp [h, ih p]
      · rw [if_neg h]; simp [h]

end Egts
