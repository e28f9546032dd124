import Verif.Proofs.Seconds

/-!
# C106: a moment is sent as the second in which it lies

Times are sent as whole seconds. The time of a record is sent as the second in which it lies, for all moments
from 2010 to 2146, and modulo 2^32 seconds for all others (`C106_record`). For the time of a position this is
false: the seconds are computed as a floating-point number, which is rounded before it is cut off, so that the
last nanoseconds of every second since 2018 are sent as the next second, which has not begun (`C106_late`). It
holds for all but the last microsecond of each second (`C106_position_partial`). So a record and the position
in it may give different seconds for the same moment (`C106_false_agree`).
-/

namespace Egts

/-- Records: the bytes are those of the whole second, for every moment. -/
theorem C106_record (env : Env) (r : ServiceDataRecord) (t : GoTime) :
    ServiceDataRecord.encode env { r with time := t } =
      ServiceDataRecord.encode env { r with time := startOf (secondOf t % 4294967296) } := by
  have h : encRecTime (startOf (secondOf t % 4294967296)) = encRecTime t := by
    rw [← rec_second t]
    unfold encRecTime decTime GoTime.unix timeOffset
    rw [UInt32.toNat_ofNat']
    congr 1
    omega
  unfold ServiceDataRecord.encode
  simp only [h]

/-- And that second is what is read. -/
theorem C106_record_read (env : Env) (r : ServiceDataRecord) (t : GoTime) (hf : r.tmfe = go!"1")
    (h : ServiceDataRecord.WF env { r with time := startOf (secondOf t % 4294967296) }) :
    ∃ b y, ServiceDataSet.encode env [{ r with time := t }] = .ok b ∧ ServiceDataSet.decode env [] b = .ok [y] ∧
      y.time = startOf (secondOf t % 4294967296) := by
  obtain ⟨b0, _, e0, _⟩ := sds_rt_nil env 0 [{ r with time := startOf (secondOf t % 4294967296) }] (by simpa using h)
  obtain ⟨b, ys, e1, e2, _, e3⟩ := sds_rt_nil env (depthFor b0.length - 1) [{ r with time := startOf (secondOf t % 4294967296) }] (by simpa using h)
  rw [e1] at e0
  injection e0 with e0
  subst e0
  cases e2 with
  | cons hy hn =>
    cases hn
    rename_i y
    refine ⟨b, y, ?_, e3 [], ?_⟩
    · rw [← e1]
      simp only [ServiceDataSet.encode, C106_record env r t]
    · rw [hy.2.2]
      exact present_one hf _ _

/-- Positions, all but the last microsecond of a second; and in that microsecond the second or the next one. -/
theorem C106_position_partial (env : Env) (d : SrPosData) (hf : (SubData.pos d).FlagsOK)
    (h0 : 0 ≤ secondOf d.navigationTime) (h1 : secondOf d.navigationTime + 1 < 4294967296) :
    ∃ b y, d.encode env = .ok b ∧ SrPosData.decode {} b = .ok y ∧
      (y.navigationTime = startOf (secondOf d.navigationTime) ∨ y.navigationTime = startOf (secondOf d.navigationTime + 1)) ∧
      (nanosOf d.navigationTime ≤ 999999000 → y.navigationTime = startOf (secondOf d.navigationTime)) := by
  obtain ⟨b, e1, e2⟩ := pos_any env d {} hf
  obtain ⟨s, hs⟩ := Int.eq_ofNat_of_zero_le h0
  have hn0 : 0 ≤ nanosOf d.navigationTime := Int.emod_nonneg _ (by norm_num)
  have hn1 : nanosOf d.navigationTime < 1000000000 := Int.emod_lt_of_pos _ (by norm_num)
  obtain ⟨n, hn⟩ := Int.eq_ofNat_of_zero_le hn0
  have ht : d.navigationTime = timeOffset + (s : Int) * 1000000000 + n := by
    rw [← hs, ← hn]
    exact moment_split _
  have hs' : s + 1 < 2 ^ 32 := by omega
  have hd : ∀ k, k < 2 ^ 32 → decTime (UInt32.ofNat k) = startOf k := by
    intro k hk
    unfold decTime startOf
    rw [UInt32.toNat_ofNat', Nat.mod_eq_of_lt hk]
  refine ⟨b, _, e1, e2, ?_, ?_⟩
  · obtain ⟨l, u⟩ := nav_bounds d.navigationTime s n (by omega) (by omega) ht
    rcases u.lt_or_eq with u | u
    · left
      have := toU32_eq env _ s l (by push_cast at u; exact u) (by omega)
      show decTime (encNavTime env d.navigationTime) = _
      unfold encNavTime
      rw [this, hd s (by omega), hs]
    · right
      have := toU32_eq env _ (s + 1) u.ge (by rw [u]; linarith) (by omega)
      show decTime (encNavTime env d.navigationTime) = _
      unfold encNavTime
      rw [this, hd (s + 1) (by omega), hs]
      push_cast
      rfl
  · intro he
    show decTime (encNavTime env d.navigationTime) = _
    rw [nav_early env d.navigationTime s n (by omega) (by omega) ht, hd s (by omega), hs]

/-- False of positions: the last 29 nanoseconds of every second from July 2018 to 2146 are sent as the next second. -/
theorem C106_late (env : Env) (d : SrPosData) (hf : (SubData.pos d).FlagsOK)
    (h0 : 268435456 ≤ secondOf d.navigationTime) (h1 : secondOf d.navigationTime + 1 < 4294967296) (hn : 999999971 ≤ nanosOf d.navigationTime) :
    ∃ b y, d.encode env = .ok b ∧ SrPosData.decode {} b = .ok y ∧ y.navigationTime = startOf (secondOf d.navigationTime + 1) ∧
      d.navigationTime < y.navigationTime := by
  obtain ⟨b, e1, e2⟩ := pos_any env d {} hf
  obtain ⟨s, hs⟩ := Int.eq_ofNat_of_zero_le (by omega : 0 ≤ secondOf d.navigationTime)
  have hn1 : nanosOf d.navigationTime < 1000000000 := Int.emod_lt_of_pos _ (by norm_num)
  obtain ⟨n, hn'⟩ := Int.eq_ofNat_of_zero_le (by omega : 0 ≤ nanosOf d.navigationTime)
  have ht : d.navigationTime = timeOffset + (s : Int) * 1000000000 + n := by
    rw [← hs, ← hn']
    exact moment_split _
  have hy : (d.onto' env {}).navigationTime = startOf (secondOf d.navigationTime + 1) := by
    show decTime (encNavTime env d.navigationTime) = _
    rw [nav_late env d.navigationTime s n (by omega) (by omega) (by omega) (by omega) ht, hs]
    unfold decTime startOf
    rw [UInt32.toNat_ofNat', Nat.mod_eq_of_lt (by omega)]
    push_cast
    rfl
  refine ⟨b, _, e1, e2, hy, ?_⟩
  rw [hy]
  unfold startOf
  rw [hs, ht]
  have h2 : (n : Int) < 1000000000 := by omega
  show (_ : Int) < _
  linarith

/-- A position 20 nanoseconds before the end of the second 2021-02-19 00:10:40. -/
def lateFix : SrPosData :=
  { navigationTime := timeOffset + 351389440999999980, latitude := 55, longitude := 37, alte := go!"0", lohs := go!"0", lahs := go!"0",
    mv := go!"1", bb := go!"0", cs := go!"0", fix := go!"1", vld := go!"1", speed := 60 }

theorem lateFix_flags : (SubData.pos lateFix).FlagsOK := by
  refine ⟨?_, ?_, ?_, ?_, ?_, ?_, ?_, ?_⟩ <;> decide

theorem C106_false : ¬ ∀ (env : Env) (d : SrPosData) (b : Bytes) (y : SrPosData), (SubData.pos d).FlagsOK → 0 ≤ secondOf d.navigationTime →
    secondOf d.navigationTime < 4294967296 → d.encode env = .ok b → SrPosData.decode {} b = .ok y →
    y.navigationTime = startOf (secondOf d.navigationTime) := by
  intro h
  obtain ⟨b, y, e1, e2, e3, _⟩ := C106_late ⟨fun _ => 0⟩ lateFix lateFix_flags (by decide) (by decide) (by decide)
  have := h _ _ b y lateFix_flags (by decide) (by decide) e1 e2
  rw [this] at e3
  revert e3
  decide

/-- A record and the position in it, made at the same moment, give different seconds. -/
theorem C106_false_agree : ∃ t : GoTime, ∀ env : Env, ∀ d : SrPosData, (SubData.pos d).FlagsOK → d.navigationTime = t →
    ∃ b y, d.encode env = .ok b ∧ SrPosData.decode {} b = .ok y ∧ y.navigationTime ≠ decTime (encRecTime t) := by
  refine ⟨lateFix.navigationTime, fun env d hf ht => ?_⟩
  obtain ⟨b, y, e1, e2, e3, _⟩ := C106_late env d hf (by rw [ht]; decide) (by rw [ht]; decide) (by rw [ht]; decide)
  refine ⟨b, y, e1, e2, ?_⟩
  rw [e3, rec_second, ht]
  decide

/-- A record made on New Year's Eve 2009, one second before the clock begins, is read as one of 2146. -/
example : decTime (encRecTime (timeOffset - 1000000000)) = startOf 4294967295 := by rw [rec_second]; decide

/-- Half a second is cut off. -/
example : decTime (encRecTime (timeOffset + 351389440500000000)) = startOf 351389440 := by rw [rec_second]; decide

end Egts
