import Verif.Spec.Seconds
import Verif.Proofs.Fits

/-! # Lemmas: the second in which a moment lies -/

namespace Egts

theorem rec_second (t : GoTime) : decTime (encRecTime t) = startOf (secondOf t % 4294967296) := by
  unfold decTime encRecTime startOf secondOf
  have : GoTime.unix t - GoTime.unix timeOffset = (t - timeOffset) / 1000000000 := by
    unfold GoTime.unix timeOffset; omega
  rw [this, UInt32.toNat_ofNat']
  congr 2
  omega

theorem moment_split (t : GoTime) : t = timeOffset + secondOf t * 1000000000 + nanosOf t := by
  have h := Int.mul_ediv_add_emod (t - timeOffset) 1000000000
  have h2 : (1000000000 : Int) * secondOf t + nanosOf t = t - timeOffset := h
  show (t : Int) = _
  linarith

/-- Rounding does not cross an integer. -/
theorem roundEven_ge {q : ℚ} {n : Int} (h : (n : ℚ) ≤ q) : n ≤ roundEven q := by
  have : n ≤ q.floor := by rw [rat_floor_eq]; exact Int.le_floor.mpr h
  rcases roundEven_cases q with ⟨e, _⟩ | ⟨e, _⟩ <;> rw [e] <;> omega

theorem roundEven_le {q : ℚ} {n : Int} (h : q ≤ (n : ℚ)) : roundEven q ≤ n := by
  have h1 : q.floor ≤ n := by
    have : ((q.floor : Int) : ℚ) ≤ n := le_trans (by rw [rat_floor_eq]; exact Int.floor_le q) h
    exact_mod_cast this
  rcases roundEven_cases q with ⟨e, _⟩ | ⟨e, h2⟩
  · rw [e]; exact h1
  · rw [e]
    by_contra hc
    have : n = q.floor := by omega
    rw [this] at h
    linarith

/-- A natural number is a multiple of the spacing of the doubles about a number below 2^53. -/
theorem ulp_dvd {x : ℚ} (h0 : 0 < x) (h1 : x < 9007199254740992) (n : Nat) : ∃ m : Int, (n : ℚ) = m * pow2 (ilog2 x - 52) := by
  obtain ⟨l, _⟩ := ilog2_spec x h0
  have hk : ilog2 x ≤ 52 := by
    by_contra hc
    have : pow2 53 ≤ pow2 (ilog2 x) := pow2_mono (by omega)
    have e : pow2 53 = 9007199254740992 := by rw [pow2_eq]; norm_num
    rw [e] at this
    linarith
  obtain ⟨k, hk'⟩ : ∃ k : Nat, ilog2 x - 52 = -(k : Int) := ⟨(52 - ilog2 x).toNat, by omega⟩
  refine ⟨(n : Int) * 2 ^ k, ?_⟩
  rw [hk', pow2_eq, zpow_neg, zpow_natCast]
  push_cast
  field_simp

theorem rnd_of_pos {x : ℚ} (h0 : 0 < x) : rnd x = (roundEven (x / pow2 (ilog2 x - 52)) : ℚ) * pow2 (ilog2 x - 52) := by
  unfold rnd
  rw [if_neg h0.ne']
  simp only [if_pos h0.le]

theorem rnd_ge {x : ℚ} {n : Nat} (h0 : 0 ≤ x) (h1 : x < 9007199254740992) (h : (n : ℚ) ≤ x) : (n : ℚ) ≤ rnd x := by
  rcases h0.eq_or_lt with h0 | h0
  · subst h0; rw [rnd_zero]; exact h
  · obtain ⟨m, hm⟩ := ulp_dvd h0 h1 n
    have hp := pow2_pos (ilog2 x - 52)
    rw [rnd_of_pos h0, hm]
    apply mul_le_mul_of_nonneg_right _ hp.le
    have : m ≤ roundEven (x / pow2 (ilog2 x - 52)) := roundEven_ge (by rw [le_div_iff₀ hp, ← hm]; exact h)
    exact_mod_cast this

theorem rnd_le {x : ℚ} {n : Nat} (h0 : 0 ≤ x) (h1 : x < 9007199254740992) (h : x ≤ (n : ℚ)) : rnd x ≤ (n : ℚ) := by
  rcases h0.eq_or_lt with h0 | h0
  · subst h0; rw [rnd_zero]; exact h
  · obtain ⟨m, hm⟩ := ulp_dvd h0 h1 n
    have hp := pow2_pos (ilog2 x - 52)
    rw [rnd_of_pos h0, hm]
    apply mul_le_mul_of_nonneg_right _ hp.le
    have : roundEven (x / pow2 (ilog2 x - 52)) ≤ m := roundEven_le (by rw [div_le_iff₀ hp, ← hm]; exact h)
    exact_mod_cast this

/-- Close enough below an integer, rounding gives the integer. -/
theorem rnd_up {x : ℚ} {n : Nat} (h0 : 268435456 ≤ x) (h1 : x < 9007199254740992) (h : |(n : ℚ) - x| < 1 / 33554432) : rnd x = n := by
  have hx : 0 < x := by linarith
  obtain ⟨m, hm⟩ := ulp_dvd hx h1 n
  have hp := pow2_pos (ilog2 x - 52)
  obtain ⟨_, u⟩ := ilog2_spec x hx
  have hk : 28 ≤ ilog2 x := by
    by_contra hc
    have : pow2 (ilog2 x + 1) ≤ pow2 28 := pow2_mono (by omega)
    have e : pow2 28 = 268435456 := by rw [pow2_eq]; norm_num
    rw [e] at this
    linarith
  have hu : (1 / 16777216 : ℚ) ≤ pow2 (ilog2 x - 52) := by
    have : pow2 (-24) ≤ pow2 (ilog2 x - 52) := pow2_mono (by omega)
    have e : pow2 (-24) = 1 / 16777216 := by rw [pow2_eq]; norm_num
    rwa [e] at this
  rw [rnd_of_pos hx, hm]
  congr 2
  have h2 := roundEven_err (x / pow2 (ilog2 x - 52))
  have h3 : |(m : ℚ) - x / pow2 (ilog2 x - 52)| < 1 / 2 := by
    have e : (m : ℚ) - x / pow2 (ilog2 x - 52) = ((n : ℚ) - x) / pow2 (ilog2 x - 52) := by rw [hm]; field_simp
    rw [e, abs_div, abs_of_pos hp, div_lt_iff₀ hp]
    linarith
  have h4 : |((roundEven (x / pow2 (ilog2 x - 52)) - m : Int) : ℚ)| < 1 := by
    push_cast
    have a := abs_le.mp h2
    have b := abs_lt.mp h3
    rw [abs_lt]
    constructor <;> linarith [a.1, a.2, b.1, b.2]
  have h5 : |roundEven (x / pow2 (ilog2 x - 52)) - m| < 1 := by exact_mod_cast h4
  have := Int.abs_lt_one_iff.mp h5
  omega

/-- The number of seconds that is converted, for a moment from 2010 to 2146. -/
theorem dur_eq (t : GoTime) (s n : Nat) (hs : s < 2 ^ 32) (hn : n < 1000000000) (ht : t = timeOffset + (s : Int) * 1000000000 + n) :
    durSeconds (GoTime.sub t timeOffset) = rnd ((s : ℚ) + rnd ((n : ℚ) / 1000000000)) := by
  have h : GoTime.sub t timeOffset = (s : Int) * 1000000000 + n := by
    unfold GoTime.sub
    rw [ht]
    have : timeOffset + (s : Int) * 1000000000 + n - timeOffset = (s : Int) * 1000000000 + n := by ring
    rw [this]
    omega
  rw [h]
  unfold durSeconds
  have h1 : Int.tdiv ((s : Int) * 1000000000 + n) 1000000000 = s := by
    rw [Int.tdiv_eq_ediv_of_nonneg (by omega)]; omega
  have h2 : Int.tmod ((s : Int) * 1000000000 + n) 1000000000 = n := by
    rw [Int.tmod_eq_emod_of_nonneg (by omega)]; omega
  rw [h1, h2]
  have : rnd (((s : Int) : ℚ)) = s := by
    have := rnd_nat s (by omega)
    simpa using this
  rw [this]
  simp

theorem frac_bounds (n : Nat) (hn : n < 1000000000) : 0 ≤ rnd ((n : ℚ) / 1000000000) ∧ rnd ((n : ℚ) / 1000000000) ≤ 1 := by
  have hq : (n : ℚ) < 1000000000 := by exact_mod_cast hn
  have h0 : (0 : ℚ) ≤ (n : ℚ) / 1000000000 := by positivity
  have h1 : (n : ℚ) / 1000000000 ≤ 1 := by rw [div_le_iff₀ (by norm_num)]; linarith
  have a := rnd_ge (n := 0) h0 (by linarith) (by simpa using h0)
  have b := rnd_le (n := 1) h0 (by linarith) (by simpa using h1)
  exact ⟨by simpa using a, by simpa using b⟩

/-- The second, or the next one. -/
theorem nav_bounds (t : GoTime) (s n : Nat) (hs : s < 2 ^ 32) (hn : n < 1000000000) (ht : t = timeOffset + (s : Int) * 1000000000 + n) :
    (s : ℚ) ≤ durSeconds (GoTime.sub t timeOffset) ∧ durSeconds (GoTime.sub t timeOffset) ≤ (s + 1 : Nat) := by
  rw [dur_eq t s n hs hn ht]
  obtain ⟨f0, f1⟩ := frac_bounds n hn
  have hsq : (s : ℚ) < 4294967296 := by exact_mod_cast hs
  have hs0 : (0 : ℚ) ≤ s := by positivity
  exact ⟨rnd_ge (by linarith) (by linarith) (by linarith), rnd_le (by linarith) (by linarith) (by push_cast; linarith)⟩

theorem nav_early (env : Env) (t : GoTime) (s n : Nat) (hs : s < 2 ^ 32) (hn : n ≤ 999999000) (ht : t = timeOffset + (s : Int) * 1000000000 + n) :
    encNavTime env t = UInt32.ofNat s := by
  obtain ⟨h1, _⟩ := nav_bounds t s n hs (by omega) ht
  refine toU32_eq env _ s h1 ?_ hs
  rw [dur_eq t s n hs (by omega) ht]
  have hq : (n : ℚ) ≤ 999999000 := by exact_mod_cast hn
  have hsq : (s : ℚ) ≤ 4294967296 := by exact_mod_cast hs.le
  have hs0 : (0 : ℚ) ≤ s := by positivity
  have hn0 : (0 : ℚ) ≤ n := by positivity
  have e1 := rnd_err ((n : ℚ) / 1000000000)
  rw [pow2_m53, abs_of_nonneg (by positivity : (0 : ℚ) ≤ (n : ℚ) / 1000000000)] at e1
  obtain ⟨f0, f1⟩ := frac_bounds n (by omega)
  have e2 := rnd_err ((s : ℚ) + rnd ((n : ℚ) / 1000000000))
  rw [pow2_m53, abs_of_nonneg (by linarith : (0 : ℚ) ≤ (s : ℚ) + rnd ((n : ℚ) / 1000000000))] at e2
  have a1 := (abs_le.mp e1).2
  have a2 := (abs_le.mp e2).2
  have hd : (n : ℚ) / 1000000000 ≤ 999999 / 1000000 := by rw [div_le_iff₀ (by norm_num)]; linarith
  have h3 : rnd ((n : ℚ) / 1000000000) ≤ 999999 / 1000000 + 1 / 9007199254740992 := by
    have : 1 / 9007199254740992 * ((n : ℚ) / 1000000000) ≤ 1 / 9007199254740992 := by linarith
    linarith
  linarith

theorem nav_late (env : Env) (t : GoTime) (s n : Nat) (h28 : 268435456 ≤ s) (hs : s + 1 < 2 ^ 32) (hn : n < 1000000000) (hl : 999999971 ≤ n)
    (ht : t = timeOffset + (s : Int) * 1000000000 + n) : encNavTime env t = UInt32.ofNat (s + 1) := by
  have hq : (999999971 : ℚ) ≤ n := by exact_mod_cast hl
  have hq1 : (n : ℚ) < 1000000000 := by exact_mod_cast hn
  have hsq : (s : ℚ) ≤ 4294967296 := by exact_mod_cast (by omega : s ≤ 4294967296)
  have hs0 : (268435456 : ℚ) ≤ s := by exact_mod_cast h28
  obtain ⟨f0, f1⟩ := frac_bounds n hn
  have e1 := rnd_err ((n : ℚ) / 1000000000)
  rw [pow2_m53, abs_of_nonneg (by positivity : (0 : ℚ) ≤ (n : ℚ) / 1000000000)] at e1
  have hd : (999999971 / 1000000000 : ℚ) ≤ (n : ℚ) / 1000000000 := by rw [le_div_iff₀ (by norm_num)]; linarith
  have hd1 : (n : ℚ) / 1000000000 ≤ 1 := by rw [div_le_iff₀ (by norm_num)]; linarith
  have a1 := (abs_le.mp e1).1
  have hr : rnd ((s : ℚ) + rnd ((n : ℚ) / 1000000000)) = (s + 1 : Nat) := by
    apply rnd_up
    · linarith
    · linarith
    · push_cast
      rw [abs_lt]
      constructor <;> linarith
  unfold encNavTime
  rw [dur_eq t s n (by omega) hn ht, hr]
  exact toU32_eq env _ (s + 1) le_rfl (by linarith) (by omega)

end Egts
