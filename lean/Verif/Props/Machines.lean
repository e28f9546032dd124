import Verif.Proofs.Machines

/-!
# C108: a package is the same bytes on every machine

The Go language leaves the value of `uint32(f)` to the implementation where `f` does not fit. `Decode` never
needs it (`C108_decode`), and `Encode` does not need it if the coordinates of all positions are without sign
and their times are from 2010 to 2146 (`C108_partial`); this includes all packages without positions. For
the other positions the claim is false: a southern latitude or a western longitude given as a negative number,
which the type allows and `Encode` accepts, is sent as one place by a machine that wraps around and as another
by one that saturates, and both are wrong (`C108_south`, `C108_west`, `C108_false`). So is a time before 2010
(`C108_early`), and the time of a position that has not been given one (`C108_unset`). The range is needed
exactly, up to a ten-millionth of a degree and a second (`C108_needed`).
-/

namespace Egts

/-- `Encode` gives the same result, error or panic, and changes the package in the same way. -/
theorem C108_partial (env env' : Env) (key : Option SecretKey) (p : Package) (h : ∀ d, p.HasPos d → d.InRange) :
    p.encode env key = p.encode env' key := by
  have hb := body_same env env' key p.fillHL (fun d hd => h d (by
    obtain ⟨recs, hr, h2⟩ := hd
    rw [fillHL_data] at hr
    exact ⟨recs, hr, h2⟩))
  unfold Package.encode
  simp only [hb]

/-- Packages without positions: always. -/
theorem C108_no_positions (env env' : Env) (key : Option SecretKey) (p : Package) (h : ∀ d, ¬p.HasPos d) :
    p.encode env key = p.encode env' key :=
  C108_partial env env' key p (fun d hd => absurd hd (h d))

/-- Records of their own. -/
theorem C108_records_partial (env env' : Env) (s : List ServiceDataRecord) (h : ∀ r ∈ s, ∀ d, r.HasPos d → d.InRange) :
    ServiceDataSet.encode env s = ServiceDataSet.encode env' s ∧ ServiceDataSet.length env s = ServiceDataSet.length env' s := by
  have := sds_same env env' s h
  exact ⟨this, by unfold ServiceDataSet.length; rw [this]⟩

/-- `Decode`: always. -/
theorem C108_decode (env env' : Env) (key : Option SecretKey) (p : Package) (content : Slice) :
    p.decode env key content = p.decode env' key content := by
  have h1 : ∀ n, rdsDecodeD env n = rdsDecodeD env' n := by
    intro n
    funext b
    exact rds_dec_same env env' n _ _ _
  have h2 : ServiceDataSet.decode env = ServiceDataSet.decode env' := by
    funext s b
    unfold ServiceDataSet.decode
    rw [h1]
  have h3 : ServiceDataSet.kept env = ServiceDataSet.kept env' := by
    funext s b
    unfold ServiceDataSet.kept
    rw [h1]
  have h4 : PtResponse.decode env = PtResponse.decode env' := by
    funext s b
    unfold PtResponse.decode
    rw [h2]
  have h5 : PtResponse.kept env = PtResponse.kept env' := by
    funext s b
    unfold PtResponse.kept
    rw [h3]
  have h6 : ∀ (p : Package) (c : Slice) (r : Bytes), p.decodeBody env key c r = p.decodeBody env' key c r := by
    intro p c r
    unfold Package.decodeBody
    rw [h2, h3, h4, h5]
  have h7 : ∀ (p : Package) (c : Slice) (r : Bytes), p.decodeTail env key c r = p.decodeTail env' key c r := by
    intro p c r
    unfold Package.decodeTail
    simp only [h6]
  have h8 : ∀ (p : Package) (c : Slice) (t r : Bytes), p.decodeRoute env key c t r = p.decodeRoute env' key c t r := by
    intro p c t r
    unfold Package.decodeRoute
    simp only [h7]
  unfold Package.decode
  simp only [h8]

/-- The latitude `-y`, `y` degrees south: one machine sends 90 - `y`, as if counted from the pole, the other 0. -/
theorem C108_south (d : SrPosData) (y : ℚ) (hf : (SubData.pos d).FlagsOK) (hy : d.latitude = -y)
    (h0 : 1 / 10000000 ≤ y) (h1 : y ≤ 90) :
    (∃ b q, d.encode wrapping = .ok b ∧ SrPosData.decode {} b = .ok q ∧ |q.latitude - (90 - y)| ≤ 1 / 10000000) ∧
    (∃ b q, d.encode saturating = .ok b ∧ SrPosData.decode {} b = .ok q ∧ q.latitude = 0) := by
  obtain ⟨b, e1, e2⟩ := pos_any wrapping d {} hf
  obtain ⟨b', e1', e2'⟩ := pos_any saturating d {} hf
  refine ⟨⟨b, _, e1, e2, ?_⟩, b', _, e1', e2', ?_⟩
  · show |decLat (encLat wrapping d.latitude) - _| ≤ _
    rw [hy]
    exact wrap_lat_read h0 h1
  · show decLat (encLat saturating d.latitude) = 0
    rw [hy, sat_lat (by linarith)]
    simp [decLat, rnd_zero]

/-- The longitude `-y`, `y` degrees west: 180 - `y`, or 0. -/
theorem C108_west (d : SrPosData) (y : ℚ) (hf : (SubData.pos d).FlagsOK) (hy : d.longitude = -y)
    (h0 : 1 / 10000000 ≤ y) (h1 : y ≤ 180) :
    (∃ b q, d.encode wrapping = .ok b ∧ SrPosData.decode {} b = .ok q ∧ |q.longitude - (180 - y)| ≤ 1 / 10000000) ∧
    (∃ b q, d.encode saturating = .ok b ∧ SrPosData.decode {} b = .ok q ∧ q.longitude = 0) := by
  obtain ⟨b, e1, e2⟩ := pos_any wrapping d {} hf
  obtain ⟨b', e1', e2'⟩ := pos_any saturating d {} hf
  refine ⟨⟨b, _, e1, e2, ?_⟩, b', _, e1', e2', ?_⟩
  · show |decLon (encLon wrapping d.longitude) - _| ≤ _
    rw [hy]
    exact wrap_lon_read h0 h1
  · show decLon (encLon saturating d.longitude) = 0
    rw [hy, sat_lon (by linarith)]
    simp [decLon, rnd_zero]

/-- The claim is false for every southern latitude given as a negative number, whatever the rest of the position is. -/
theorem C108_false (d : SrPosData) (hf : (SubData.pos d).FlagsOK) (h0 : -90 ≤ d.latitude) (h1 : d.latitude ≤ -1 / 10000000) :
    d.encode wrapping ≠ d.encode saturating := by
  intro h
  obtain ⟨b, e1, e2⟩ := pos_any wrapping d {} hf
  obtain ⟨b', e1', e2'⟩ := pos_any saturating d {} hf
  have hb : b = b' := by
    have := e1.symm.trans (h.trans e1')
    injection this
  subst hb
  have hd := congrArg SrPosData.latitude (Except.ok.inj (e2.symm.trans e2'))
  have hd : decLat (encLat wrapping d.latitude) = decLat (encLat saturating d.latitude) := hd
  obtain ⟨y, hy⟩ : ∃ y, d.latitude = -y := ⟨-d.latitude, by ring⟩
  rw [hy] at hd h0 h1
  rw [sat_lat (by linarith), wrap_lat wrapping (by linarith) (by linarith)] at hd
  have hz : decLat 0 = 0 := by simp [decLat, rnd_zero]
  have hne := lat_ne_zero wrapping (y := y) (by linarith) (by linarith)
  rw [hz] at hd
  unfold decLat at hd
  have a := dec_err 90 (by norm_num) (by norm_num) 90 (by norm_num) (-encLat wrapping y)
  rw [hd] at a
  have hp : 1 ≤ (-encLat wrapping y).toNat := by
    rcases Nat.eq_zero_or_pos (-encLat wrapping y).toNat with h | h
    · exfalso
      apply hne
      have h2 : -encLat wrapping y = 0 := UInt32.toNat_inj.mp (by simpa using h)
      have h3 := congrArg (fun z => -z) h2
      simpa using h3
    · exact h
  have hq : (1 : ℚ) ≤ (-encLat wrapping y).toNat := by exact_mod_cast hp
  rw [abs_le] at a
  have : (1 : ℚ) * 90 / 4294967295 ≤ (-encLat wrapping y).toNat * 90 / 4294967295 := by gcongr
  have h2 : (1 : ℚ) / 10000000000 < 1 * 90 / 4294967295 := by norm_num
  linarith [a.1]

/-- The seconds of a moment before 2010. -/
theorem dur_before (t : GoTime) (s : Nat) (hs : s < 2 ^ 32) (ht : t = startOf (-(s : Int))) :
    durSeconds (GoTime.sub t timeOffset) = -(s : ℚ) := by
  have h : GoTime.sub t timeOffset = (-(s : Int)) * 1000000000 := by
    unfold GoTime.sub
    rw [ht]
    have : startOf (-(s : Int)) - timeOffset = (-(s : Int)) * 1000000000 := by unfold startOf; ring
    rw [this]
    omega
  unfold durSeconds
  rw [h, Int.mul_tdiv_cancel _ (by norm_num), Int.mul_tmod_left]
  simp only [Int.cast_zero, zero_div, rnd_zero, add_zero]
  have : rnd ((-(s : Int) : Int) : ℚ) = -(s : ℚ) := by
    push_cast
    rw [rnd_neg', rnd_nat s (by omega)]
  rw [this, rnd_neg', rnd_nat s (by omega)]

/-- A time `s` seconds before 2010: one machine sends it as `s` seconds before the year 2146 in which the
numbers end, the other as the beginning of 2010. -/
theorem C108_early (d : SrPosData) (s : Nat) (hf : (SubData.pos d).FlagsOK) (ht : d.navigationTime = startOf (-(s : Int)))
    (h0 : 0 < s) (h1 : s < 2 ^ 32) :
    (∃ b q, d.encode wrapping = .ok b ∧ SrPosData.decode {} b = .ok q ∧ q.navigationTime = startOf (4294967296 - s)) ∧
    (∃ b q, d.encode saturating = .ok b ∧ SrPosData.decode {} b = .ok q ∧ q.navigationTime = startOf 0) := by
  obtain ⟨b, e1, e2⟩ := pos_any wrapping d {} hf
  obtain ⟨b', e1', e2'⟩ := pos_any saturating d {} hf
  have hq : (0 : ℚ) < s := by exact_mod_cast h0
  have hd := dur_before d.navigationTime s h1 ht
  refine ⟨⟨b, _, e1, e2, ?_⟩, b', _, e1', e2', ?_⟩
  · show decTime (encNavTime wrapping d.navigationTime) = _
    unfold encNavTime
    have hs : (s : ℚ) < 4294967296 := by exact_mod_cast h1
    rw [hd, wrap_neg wrapping hq.le hs, toU32_eq wrapping s s le_rfl (by linarith) (by omega)]
    unfold decTime startOf
    have : ((-UInt32.ofNat s).toNat : Int) = 4294967296 - s := by
      rw [UInt32.toNat_neg, UInt32.toNat_ofNat']
      simp only [UInt32.size]
      omega
    rw [this]
  · show decTime (encNavTime saturating d.navigationTime) = _
    have e : encNavTime saturating d.navigationTime = 0 := by
      unfold encNavTime Env.toU32
      rw [hd, if_neg (by rintro ⟨a, _⟩; linarith)]
      show (if _ then (0 : UInt32) else _) = 0
      rw [if_pos (by linarith)]
    rw [e]
    unfold decTime startOf
    rw [UInt32.toNat_zero, Nat.cast_zero]

/-- A position that has not been given a time is sent with one in 2126, or with the beginning of 2010. -/
theorem C108_unset (d : SrPosData) (hf : (SubData.pos d).FlagsOK) (ht : d.navigationTime = zeroTime) :
    (∃ b q, d.encode wrapping = .ok b ∧ SrPosData.decode {} b = .ok q ∧ q.navigationTime = startOf 3661529852) ∧
    (∃ b q, d.encode saturating = .ok b ∧ SrPosData.decode {} b = .ok q ∧ q.navigationTime = startOf 0) := by
  obtain ⟨b, e1, e2⟩ := pos_any wrapping d {} hf
  obtain ⟨b', e1', e2'⟩ := pos_any saturating d {} hf
  have hw : encNavTime wrapping zeroTime = 3661529852 := by decide +kernel
  have hs : encNavTime saturating zeroTime = 0 := by decide +kernel
  refine ⟨⟨b, _, e1, e2, ?_⟩, b', _, e1', e2', ?_⟩
  · show decTime (encNavTime wrapping d.navigationTime) = _
    rw [ht, hw]; decide +kernel
  · show decTime (encNavTime saturating d.navigationTime) = _
    rw [ht, hs]; decide +kernel

/-- The range is needed: for every position outside it, by a ten-millionth of a degree or by a second, there
are two implementations that send different bytes. -/
theorem C108_needed (d : SrPosData) (hf : (SubData.pos d).FlagsOK)
    (h : d.latitude ≤ -1 / 10000000 ∨ 90 + 1 / 10000000 ≤ d.latitude ∨ d.longitude ≤ -1 / 10000000 ∨ 180 + 1 / 10000000 ≤ d.longitude ∨
      d.navigationTime ≤ timeOffset - 1000000000 ∨ timeOffset + (4294967296 : Int) * 1000000000 ≤ d.navigationTime) :
    ∃ env env', d.encode env ≠ d.encode env' := by
  refine ⟨⟨fun _ => 0⟩, ⟨fun _ => 1⟩, fun he => ?_⟩
  obtain ⟨b, e1, e2⟩ := pos_any ⟨fun _ => 0⟩ d {} hf
  obtain ⟨f, hfl⟩ : ∃ f, parseFlags (d.alte ++ d.lohs ++ d.lahs ++ d.mv ++ d.bb ++ d.cs ++ d.fix ++ d.vld) = .ok f := by
    unfold SrPosData.encode at e1
    obtain ⟨f, hf, _⟩ := bind_eq_ok.mp e1
    exact ⟨f, hf⟩
  unfold SrPosData.encode at he
  rw [hfl] at he
  simp only [ok_bind] at he
  injection he with he
  simp only [List.append_assoc] at he
  obtain ⟨ht, he⟩ := List.append_inj he (by simp [put32])
  obtain ⟨hla, he⟩ := List.append_inj he (by simp [put32])
  obtain ⟨hlo, _⟩ := List.append_inj he (by simp [put32])
  have ht := put32_inj ht
  have hla := put32_inj hla
  have hlo := put32_inj hlo
  have key : ∀ q : ℚ, Env.toU32 ⟨fun _ => 0⟩ q = Env.toU32 ⟨fun _ => 1⟩ q → 0 ≤ q ∧ q < 4294967296 := by
    intro q hq
    by_contra hn
    unfold Env.toU32 at hq
    rw [if_neg hn, if_neg hn] at hq
    exact absurd (show (0 : UInt32) = 1 from hq) (by decide)
  have kt := key _ ht
  have kla := key _ hla
  have klo := key _ hlo
  rcases h with h | h | h | h | h | h
  · have := coord_below (c := 90) (by norm_num) (show d.latitude < 0 by linarith)
    linarith [kla.1]
  · have := coord_above (c := 90) (by norm_num) (by norm_num) h
    linarith [kla.2]
  · have := coord_below (c := 180) (by norm_num) (show d.longitude < 0 by linarith)
    linarith [klo.1]
  · have := coord_above (c := 180) (by norm_num) (by norm_num) h
    linarith [klo.2]
  · have := dur_below h
    linarith [kt.1]
  · have := dur_above h
    linarith [kt.2]

/-! ## Examples -/

/-- A latitude in Sydney, 33.87 degrees south. -/
def sydney : SrPosData :=
  { latitude := -3387 / 100, longitude := 15121 / 100, navigationTime := startOf 500000000, alte := go!"0", lohs := go!"0", lahs := go!"1",
    mv := go!"0", bb := go!"0", cs := go!"0", fix := go!"0", vld := go!"1" }

/-- It is sent as 56.13 degrees by one machine and as 0 by the other. -/
example : (∃ b q, sydney.encode wrapping = .ok b ∧ SrPosData.decode {} b = .ok q ∧ |q.latitude - 5613 / 100| ≤ 1 / 10000000) ∧
    (∃ b q, sydney.encode saturating = .ok b ∧ SrPosData.decode {} b = .ok q ∧ q.latitude = 0) := by
  have h := C108_south sydney (3387 / 100) (by refine ⟨?_, ?_, ?_, ?_, ?_, ?_, ?_, ?_⟩ <;> decide) (by norm_num [sydney]) (by norm_num) (by norm_num)
  rw [show (90 : ℚ) - 3387 / 100 = 5613 / 100 by norm_num] at h
  exact h

/-- The beginning of 1970 is sent as a moment in 2106. -/
example : encNavTime wrapping (startOf (-1262304000)) = 3032663296 ∧ encNavTime saturating (startOf (-1262304000)) = 0 := by
  decide +kernel

/-- A position in range, in a package. -/
example : ({ servicesFrameData := some (.sds [{ recordDataSet := [{ subrecordData := some (.pos { latitude := 55, longitude := 37 }) }] }]) } : Package).HasPos
    { latitude := 55, longitude := 37 } := ⟨_, .inl rfl, _, List.mem_singleton_self _, _, List.mem_singleton_self _, rfl⟩

example : ({ latitude := 55, longitude := 37, navigationTime := startOf 1000 } : SrPosData).InRange := by
  refine ⟨⟨by norm_num, by norm_num⟩, ⟨by norm_num, by norm_num⟩, ?_, ?_⟩ <;> decide

end Egts
