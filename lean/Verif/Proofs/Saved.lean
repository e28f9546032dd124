import Verif.Proofs.History
import Verif.Proofs.JsonNav
import Verif.Proofs.Pos

/-! # Lemmas: what can be in a record that the receiver saves -/

namespace Egts

/-- What every position and level reading decoded from bytes satisfies. -/
def SubData.Decoded : SubData → Prop
  | .pos d => ∃ t la lo : UInt32, d.navigationTime = decTime t ∧ d.latitude = decLat la ∧ d.longitude = decLon lo ∧ d.speed.toNat ≤ 1638
  | .liquid d => d.errorFlag = go!"0" ∨ d.errorFlag = go!"1"
  | _ => True

def RecordData.Decoded (r : RecordData) : Prop := ∀ d, r.subrecordData = some d → d.Decoded

def ServiceDataRecord.Decoded (r : ServiceDataRecord) : Prop := ∀ x ∈ r.recordDataSet, x.Decoded

theorem pos_decoded (e : SrPosData) (b : Bytes) (d : SrPosData) (h : SrPosData.decode e b = .ok d) : (SubData.pos d).Decoded := by
  unfold SrPosData.decode at h
  obtain ⟨⟨t1, r1⟩, _, h⟩ := bind_eq_ok.mp h
  obtain ⟨⟨t2, r2⟩, _, h⟩ := bind_eq_ok.mp h
  obtain ⟨⟨t3, r3⟩, _, h⟩ := bind_eq_ok.mp h
  obtain ⟨⟨fl, r4⟩, _, h⟩ := bind_eq_ok.mp h
  obtain ⟨⟨t5, r5⟩, _, h⟩ := bind_eq_ok.mp h
  simp only at h
  split at h
  · cases h
  · rename_i sp hsp
    obtain ⟨⟨dir, r6⟩, _, h⟩ := bind_eq_ok.mp h
    obtain ⟨⟨t7, r7⟩, _, h⟩ := bind_eq_ok.mp h
    obtain ⟨⟨din, r8⟩, _, h⟩ := bind_eq_ok.mp h
    obtain ⟨⟨src, r9⟩, _, h⟩ := bind_eq_ok.mp h
    obtain ⟨alt, _, h⟩ := bind_eq_ok.mp h
    injection h with h
    subst h
    rw [parse_speed] at hsp
    injection hsp with hsp _
    subst hsp
    refine ⟨_, _, _, rfl, rfl, rfl, ?_⟩
    simp only [UInt16.toNat_div, UInt16.toNat_ofNat']
    have e : (10 : UInt16).toNat = 10 := rfl
    rw [e]
    omega

theorem liquid_decoded (e : SrLiquidLevelSensor) (b : Bytes) (d : SrLiquidLevelSensor) (h : SrLiquidLevelSensor.decode e b = .ok d) :
    (SubData.liquid d).Decoded := by
  unfold SrLiquidLevelSensor.decode at h
  obtain ⟨⟨fl, r1⟩, _, h⟩ := bind_eq_ok.mp h
  obtain ⟨num, _, h⟩ := bind_eq_ok.mp h
  obtain ⟨⟨t2, r2⟩, _, h⟩ := bind_eq_ok.mp h
  obtain ⟨⟨t4, r4⟩, _, h⟩ := bind_eq_ok.mp h
  injection h with h
  subst h
  have e : substr (fmt8 fl) 1 2 = [bitChar fl.toNat 6] := rfl
  simp only [SubData.Decoded, e]
  unfold bitChar
  split
  · right; rfl
  · left; rfl

theorem sub_decoded (env : Env) (f : Bytes → Except Err SrResponse) (t : UInt8) (len : UInt16) (b : Bytes) (d : SubData)
    (h : subDecode env f t len b = .ok (some d)) : d.Decoded := by
  unfold subDecode at h
  split at h
  all_goals first
    | (obtain ⟨x, hx, h⟩ := bind_eq_ok.mp h
       injection h with h; injection h with h; subst h
       first | exact pos_decoded _ _ _ hx | exact liquid_decoded _ _ _ hx | trivial)
    | (split at h
       · obtain ⟨x, hx, h⟩ := bind_eq_ok.mp h
         injection h with h; injection h with h; subst h
         trivial
       · cases h)
    | (injection h with h; cases h)

theorem rdsLoop_decoded (env : Env) (f : Bytes → Except Err SrResponse) : ∀ (n : Nat) (acc : List RecordData) (b : Bytes) (out : List RecordData),
    rdsLoop env f n acc b = .ok out → (∀ x ∈ acc, x.Decoded) → ∀ x ∈ out, x.Decoded
  | 0, acc, b, out, h, ha => by
    simp only [rdsLoop] at h
    injection h with h
    subst h
    exact ha
  | n + 1, acc, b, out, h, ha => by
    simp only [rdsLoop] at h
    split at h
    · injection h with h
      subst h
      exact ha
    · obtain ⟨⟨rd, r⟩, h1, h⟩ := bind_eq_ok.mp h
      refine rdsLoop_decoded env f n _ r out h ?_
      intro x hx
      rcases List.mem_append.mp hx with hx | hx
      · exact ha x hx
      · unfold rdStep at h1
        obtain ⟨⟨t, r1⟩, _, h1⟩ := bind_eq_ok.mp h1
        obtain ⟨⟨tmp, r2⟩, _, h1⟩ := bind_eq_ok.mp h1
        obtain ⟨d, hd, h1⟩ := bind_eq_ok.mp h1
        injection h1 with h1
        injection h1 with h1 _
        subst h1
        cases d with
        | none => cases hx
        | some d =>
          simp only [Option.map_some, Option.toList_some, List.mem_singleton] at hx
          subst hx
          intro d' hd'
          injection hd' with hd'
          subst hd'
          exact sub_decoded env f _ _ _ _ hd

theorem sdsLoop_decoded (env : Env) (k : Nat) : ∀ (n : Nat) (acc : List ServiceDataRecord) (b : Bytes) (out : List ServiceDataRecord),
    sdsLoop (rdsDecodeD env k) n acc b = .ok out → (∀ x ∈ acc, x.Decoded) → ∀ x ∈ out, x.Decoded
  | 0, acc, b, out, h, ha => by
    simp only [sdsLoop] at h
    injection h with h
    subst h
    exact ha
  | n + 1, acc, b, out, h, ha => by
    simp only [sdsLoop] at h
    split at h
    · injection h with h
      subst h
      exact ha
    · obtain ⟨⟨sdr, r⟩, h1, h⟩ := bind_eq_ok.mp h
      refine sdsLoop_decoded env k n _ r out h ?_
      intro x hx
      rcases List.mem_append.mp hx with hx | hx
      · exact ha x hx
      · rw [List.mem_singleton] at hx
        subst hx
        unfold sdrStep at h1
        obtain ⟨⟨s, r1⟩, h2, h1⟩ := bind_eq_ok.mp h1
        simp only at h1
        split at h1
        · obtain ⟨⟨b', r2⟩, _, h1⟩ := bind_eq_ok.mp h1
          obtain ⟨rds, h3, h1⟩ := bind_eq_ok.mp h1
          injection h1 with h1
          injection h1 with h1 _
          subst h1
          exact rdsLoop_decoded env _ _ _ _ _ h3 (by simp)
        · injection h1 with h1
          injection h1 with h1 _
          subst h1
          simp only [sdrHead, bind_eq_ok, Prod.exists, pure_eq_ok, Except.ok.injEq, Prod.mk.injEq] at h2
          obtain ⟨_, _, _, _, _, _, _, _, _, _, _, _, _, _, _, _, _, _, _, _, _, _, _, _, h2, _⟩ := h2
          subst h2
          intro x hx
          cases hx

theorem accepts_decoded {env : Env} {pkt : Slice} {p : Package} {recs : List ServiceDataRecord} (h : Accepts env pkt p recs) :
    ∀ r ∈ recs, r.Decoded := by
  obtain ⟨h1, h2, h3⟩ := h
  obtain ⟨d, hd, hq⟩ := ((decode_frame env none {} pkt).2 _ _ _ h1).2.2 rfl
  have hd' : d = .sds recs := by
    rw [hq] at h3
    simp only [Frame.package] at h3
    injection h3
  subst hd'
  unfold Frame.content at hd
  obtain ⟨x, hx, hd⟩ := bind_eq_ok.mp hd
  split at hd
  · obtain ⟨s, hs, hd⟩ := bind_eq_ok.mp hd
    injection hd with hd; injection hd with hd
    subst hd
    exact sdsLoop_decoded env _ _ _ _ _ hs (by simp)
  · obtain ⟨s, hs, hd⟩ := bind_eq_ok.mp hd
    injection hd with hd; cases hd

/-! ## Degrees -/

theorem deg_range (v : UInt32) (m : Nat) (hm : m ≤ 180) (hm0 : 0 < m) :
    rnd (rnd ((v.toNat : ℚ) * m) / 4294967295) ≤ m ∧ 0 ≤ rnd (rnd ((v.toNat : ℚ) * m) / 4294967295) ∧
      |rnd (rnd ((v.toNat : ℚ) * m) / 4294967295) - v.toNat * m / 4294967295| ≤ 1 / 10 ^ 13 := by
  have hv := v.toNat_lt
  have e : rnd ((v.toNat : ℚ) * m) = v.toNat * m := by
    have := rnd_nat (v.toNat * m) (by
      calc v.toNat * m ≤ 2 ^ 32 * 180 := Nat.mul_le_mul hv.le hm
        _ < 2 ^ 53 := by norm_num)
    rw [Nat.cast_mul] at this
    exact this
  rw [e]
  have hp := pow2_m53
  have hmq : (m : ℚ) ≤ 180 := by exact_mod_cast hm
  have hmq0 : (0 : ℚ) < m := by exact_mod_cast hm0
  have hvq : (v.toNat : ℚ) ≤ 4294967295 := by
    have : v.toNat ≤ 4294967295 := by omega
    exact_mod_cast this
  have hv0 : (0 : ℚ) ≤ v.toNat := Nat.cast_nonneg _
  set x : ℚ := (v.toNat : ℚ) * m / 4294967295 with hx
  have hx0 : 0 ≤ x := by positivity
  have hxm : x ≤ m := by
    rw [hx, div_le_iff₀ (by norm_num)]
    nlinarith
  have herr := rnd_err x
  rw [abs_of_nonneg hx0, hp] at herr
  have hlo := (abs_le.mp herr).1
  have hhi := (abs_le.mp herr).2
  refine ⟨?_, by linarith, le_trans herr (by linarith)⟩
  by_cases hmax : v.toNat = 4294967295
  · have : x = m := by rw [hx, hmax]; field_simp; norm_num
    rw [this, rnd_nat m (by omega)]
  · have h1 : (v.toNat : ℚ) ≤ 4294967294 := by
      have : v.toNat ≤ 4294967294 := by omega
      exact_mod_cast this
    have h2 : x ≤ m * (4294967294 / 4294967295) := by
      rw [hx, mul_comm (v.toNat : ℚ), mul_div_assoc]
      exact mul_le_mul_of_nonneg_left (by linarith) hmq0.le
    have h3 : (m : ℚ) * (4294967294 / 4294967295) * (1 + 1 / 9007199254740992) ≤ m := by
      have : (4294967294 / 4294967295 : ℚ) * (1 + 1 / 9007199254740992) ≤ 1 := by norm_num
      rw [mul_assoc]
      exact mul_le_of_le_one_right hmq0.le this
    nlinarith

theorem decLat_range (v : UInt32) : decLat v ≤ 90 ∧ 0 ≤ decLat v ∧ |decLat v - v.toNat * 90 / 4294967295| ≤ 1 / 10 ^ 13 :=
  deg_range v 90 (by norm_num) (by norm_num)

theorem decLon_range (v : UInt32) : decLon v ≤ 180 ∧ 0 ≤ decLon v ∧ |decLon v - v.toNat * 180 / 4294967295| ≤ 1 / 10 ^ 13 :=
  deg_range v 180 (by norm_num) (by norm_num)

/-! ## Saved records -/

theorem stored_mem {pid : UInt16} {now : Int} {c : UInt32} {recs : List ServiceDataRecord} {r : NavRecord} (h : r ∈ stored pid now c recs) :
    ∃ rec ∈ recs, ∃ x ∈ rec.recordDataSet, ∃ d, x.pos? = some d ∧ ∃ cl, r = storedAs now cl (storedId pid rec.recordDataSet) rec.recordDataSet d := by
  unfold stored at h
  obtain ⟨⟨rec, i⟩, hr, h⟩ := List.mem_filterMap.mp h
  rw [Option.map_eq_some_iff] at h
  obtain ⟨d, hd, h⟩ := h
  obtain ⟨x, hx, hxd⟩ := List.mem_filterMap.mp (List.mem_of_getLast? hd)
  exact ⟨rec, (List.mem_zipIdx hr).2.2 ▸ List.getElem_mem _, x, hx, d, hxd, _, h.symm⟩

/-- Every record saved for a packet comes from a position and subrecords of one of the packet's records. -/
theorem saved_from {env : Env} {now : Int} {c : UInt32} {pkt : Slice} {r : NavRecord} (h : r ∈ saves (handlePacket env now c pkt).effs) :
    ∃ (rec : ServiceDataRecord) (d : SrPosData) (cl id : UInt32), rec.Decoded ∧ (SubData.pos d).Decoded ∧
      r = storedAs now cl id rec.recordDataSet d := by
  rw [handlePacket_saves] at h
  cases ha : accepted env pkt with
  | none => rw [ha] at h; cases h
  | some x =>
    obtain ⟨pid, recs⟩ := x
    rw [ha] at h
    obtain ⟨p, hp, _⟩ := (accepted_iff env pkt pid recs).mp ha
    obtain ⟨rec, hrec, x, hx, d, hd, cl, h⟩ := stored_mem h
    have hrec' : rec ∈ recs := (List.takeWhile_sublist _).subset hrec
    have hdec := accepts_decoded hp rec hrec'
    refine ⟨rec, d, cl, _, hdec, ?_, h⟩
    have := hdec x hx
    unfold RecordData.pos? at hd
    split at hd
    · rename_i d' hd'
      injection hd with hd
      subst hd
      exact this _ hd'
    · cases hd

theorem saved_ok {env : Env} {now : Int} {c : UInt32} {pkt : Slice} {r : NavRecord} (h : r ∈ saves (handlePacket env now c pkt).effs) : r.Ok := by
  obtain ⟨rec, d, cl, id, hdec, ⟨t, la, lo, _, h1, h2, _⟩, rfl⟩ := saved_from h
  refine ⟨?_, ?_, ?_⟩
  · simp only [storedAs, h1]
    exact rnd_idem _
  · simp only [storedAs, h2]
    exact rnd_idem _
  · intro s hs
    simp only [storedAs] at hs
    obtain ⟨x, hx, hs⟩ := List.mem_flatMap.mp hs
    have hx' := hdec x hx
    unfold RecordData.liquids at hs
    split at hs
    · rename_i l hl
      have := hx' _ hl
      rw [List.mem_singleton] at hs
      subst hs
      rcases this with h | h <;> (simp only [h]; intro c hc; simp at hc; subst hc; decide)
    · cases hs

/-- What holds of the records saved for each packet holds of the records saved on a connection. -/
theorem conn_saves {env : Env} {ce : ConnEnv} {P : NavRecord → Prop} (hP : ∀ i c b, ∀ r ∈ saves (handlePacket env (ce.clock i) c ⟨b, ce.spare i⟩).effs, P r)
    (input : Bytes) (e : End) : ∀ r ∈ saves (handleConn env ce input e), P r := by
  obtain ⟨frames, tail, effs, h1, h2, h3⟩ := frames_tail e _ input (Nat.lt_succ_self _)
  have hstop : saves effs = [] := by
    unfold readPacket at h3
    simp only at h3
    split at h3
    · split at h3
      · injection h3 with h3; subst h3; rfl
      · injection h3 with h3; subst h3; rfl
      · split at h3 <;> (injection h3 with h3; subst h3; rfl)
    · split at h3
      · injection h3 with h3; subst h3; rfl
      · split at h3
        · split at h3 <;> (injection h3 with h3; subst h3; rfl)
        · cases h3
  have hall : ∀ (frames : List Bytes) (i : Nat) (c : UInt32), ∀ r ∈ saves (processAll env ce i c frames).effs, P r := by
    intro frames
    induction frames with
    | nil => intro i c w hw; cases hw
    | cons f fs ih =>
      intro i c
      unfold processAll
      simp only
      split
      · exact hP _ _ _
      · intro w hw
        rw [saves_append, List.mem_append] at hw
        exact hw.elim (hP _ _ _ w) (ih _ _ w)
  intro w hw
  rw [h1, handleConn_eq, handleFrom_frames env ce e 0 0 frames tail h2] at hw
  split at hw
  · exact hall frames 0 0 w hw
  · rw [saves_append, List.mem_append, handleFrom_eq, h3] at hw
    rcases hw with hw | hw
    · exact hall frames 0 0 w hw
    · simp only [hstop] at hw; cases hw

end Egts
