import Verif.Spec.Machines
import Verif.Proofs.Seconds
import Verif.Proofs.Parse
import Verif.Proofs.KeptMore

/-! # Lemmas: machines -/

namespace Egts

theorem toU32_fits (env env' : Env) {f : ℚ} (h0 : 0 ≤ f) (h1 : f < 4294967296) : env.toU32 f = env'.toU32 f := by
  unfold Env.toU32
  rw [if_pos ⟨h0, h1⟩, if_pos ⟨h0, h1⟩]

/-- The number before the conversion, for a coordinate `x` in `[0, c]`. -/
theorem coord_fits {c x : ℚ} (hc : 0 < c) (h0 : 0 ≤ x) (h1 : x ≤ c) :
    0 ≤ rnd (rnd (x / c) * 4294967295) ∧ rnd (rnd (x / c) * 4294967295) ≤ 4294967295 := by
  have a0 : 0 ≤ x / c := by positivity
  have a1 : x / c ≤ 1 := by rw [div_le_one hc]; exact h1
  have b0 := rnd_ge (n := 0) a0 (by linarith) (by simpa using a0)
  have b1 := rnd_le (n := 1) a0 (by linarith) (by simpa using a1)
  push_cast at b0 b1
  have c0 : 0 ≤ rnd (x / c) * 4294967295 := by positivity
  have c1 : rnd (x / c) * 4294967295 ≤ 4294967295 := by linarith
  have d0 := rnd_ge (n := 0) c0 (by linarith) (by simpa using c0)
  have d1 := rnd_le (n := 4294967295) c0 (by linarith) (by push_cast; exact c1)
  push_cast at d0 d1
  exact ⟨d0, d1⟩

theorem encLat_same (env env' : Env) {x : ℚ} (h0 : 0 ≤ x) (h1 : x ≤ 90) : encLat env x = encLat env' x := by
  obtain ⟨a, b⟩ := coord_fits (c := 90) (by norm_num) h0 h1
  exact toU32_fits env env' a (by linarith)

theorem encLon_same (env env' : Env) {x : ℚ} (h0 : 0 ≤ x) (h1 : x ≤ 180) : encLon env x = encLon env' x := by
  obtain ⟨a, b⟩ := coord_fits (c := 180) (by norm_num) h0 h1
  exact toU32_fits env env' a (by linarith)

theorem encNavTime_same (env env' : Env) {t : GoTime} (h0 : timeOffset ≤ t)
    (h1 : t ≤ timeOffset + (4294967295 : Int) * 1000000000) : encNavTime env t = encNavTime env' t := by
  have hs := moment_split t
  have k0 : 0 ≤ secondOf t := by unfold secondOf; have : (0 : Int) ≤ t - timeOffset := Int.sub_nonneg.mpr h0; omega
  have k1 : 0 ≤ nanosOf t := Int.emod_nonneg _ (by norm_num)
  have k2 : nanosOf t < 1000000000 := Int.emod_lt_of_pos _ (by norm_num)
  have k3 : secondOf t * 1000000000 + nanosOf t ≤ 4294967295 * 1000000000 := by
    have e : secondOf t * 1000000000 + nanosOf t = t - timeOffset := by
      have h := Int.mul_ediv_add_emod (t - timeOffset) 1000000000
      have h2 : (1000000000 : Int) * secondOf t + nanosOf t = t - timeOffset := h
      linarith
    rw [e]
    have : (t : Int) ≤ timeOffset + (4294967295 : Int) * 1000000000 := h1
    linarith
  obtain ⟨s, es⟩ := Int.eq_ofNat_of_zero_le k0
  obtain ⟨n, en⟩ := Int.eq_ofNat_of_zero_le k1
  rw [es, en] at k3 hs
  rw [en] at k2
  obtain ⟨l, u⟩ := nav_bounds t s n (by omega) (by omega) hs
  have l0 : (0 : ℚ) ≤ s := by positivity
  unfold encNavTime
  rcases Nat.lt_or_ge s 4294967295 with h | h
  · have : ((s + 1 : Nat) : ℚ) ≤ 4294967295 := by exact_mod_cast h
    exact toU32_fits env env' (by linarith) (by linarith)
  · have e1 : s = 4294967295 := by omega
    have e2 : n = 0 := by omega
    subst e1 e2
    have : durSeconds (GoTime.sub t timeOffset) = 4294967295 := by
      rw [dur_eq t 4294967295 0 (by norm_num) (by norm_num) hs]
      simp only [Nat.cast_zero, zero_div, rnd_zero, add_zero]
      exact rnd_nat 4294967295 (by norm_num)
    exact toU32_fits env env' (by rw [this]; norm_num) (by rw [this]; norm_num)

theorem pos_same (env env' : Env) (d : SrPosData) (h : d.InRange) : d.encode env = d.encode env' := by
  obtain ⟨⟨a, b⟩, ⟨c, e⟩, f, g⟩ := h
  unfold SrPosData.encode
  rw [encLat_same env env' a b, encLon_same env env' c e, encNavTime_same env env' f g]

theorem sub_same (env env' : Env) (x : SubData) (h : ∀ d, x = .pos d → d.InRange) : x.encode env = x.encode env' := by
  cases x with
  | pos d => exact pos_same env env' d (h d rfl)
  | _ => rfl

theorem rd_same (env env' : Env) (rd : RecordData) (h : ∀ d, rd.subrecordData = some (.pos d) → d.InRange) :
    rd.encode env = rd.encode env' := by
  unfold RecordData.encode
  cases e : rd.subrecordData with
  | none => rfl
  | some x =>
    have hx := sub_same env env' x (fun d hd => h d (by rw [e, hd]))
    have hl : x.length env = x.length env' := by
      cases x <;> simp only [SubData.length, hx]
    simp only [hx, hl]

theorem rds_same (env env' : Env) : ∀ l : List RecordData,
    (∀ rd ∈ l, ∀ d, rd.subrecordData = some (.pos d) → d.InRange) → RecordDataSet.encode env l = RecordDataSet.encode env' l
  | [], _ => rfl
  | rd :: l, h => by
    unfold RecordDataSet.encode
    rw [rd_same env env' rd (h rd (by simp)), rds_same env env' l (fun x hx => h x (by simp [hx]))]

theorem rec_same (env env' : Env) (r : ServiceDataRecord) (h : ∀ d, r.HasPos d → d.InRange) : r.encode env = r.encode env' := by
  unfold ServiceDataRecord.encode
  rw [rds_same env env' r.recordDataSet (fun rd hr d hd => h d ⟨rd, hr, hd⟩)]

theorem sds_same (env env' : Env) : ∀ l : List ServiceDataRecord, (∀ r ∈ l, ∀ d, r.HasPos d → d.InRange) →
    ServiceDataSet.encode env l = ServiceDataSet.encode env' l
  | [], _ => rfl
  | r :: l, h => by
    unfold ServiceDataSet.encode
    rw [rec_same env env' r (h r (by simp)), sds_same env env' l (fun x hx => h x (by simp [hx]))]

theorem fillHL_data (p : Package) : p.fillHL.servicesFrameData = p.servicesFrameData := by
  unfold Package.fillHL; split <;> rfl

theorem body_same (env env' : Env) (key : Option SecretKey) (p : Package) (h : ∀ d, p.HasPos d → d.InRange) :
    p.bodyBytes env key = p.bodyBytes env' key := by
  unfold Package.bodyBytes
  cases e : p.servicesFrameData with
  | none => rfl
  | some x =>
    have hx : x.encode env = x.encode env' := by
      cases x with
      | sds s => exact sds_same env env' s (fun r hr d hd => h d ⟨s, .inl e, r, hr, hd⟩)
      | resp r =>
        show r.encode env = r.encode env'
        unfold PtResponse.encode
        cases e2 : r.sdr with
        | none => rfl
        | some s => simp only [sds_same env env' s (fun q hq d hd => h d ⟨s, .inr ⟨r, e, e2⟩, q, hq, hd⟩)]
    simp only [hx]

theorem resp_dec_same (env env' : Env) : ∀ n, srRespDecode env n = srRespDecode env' n
  | 0 => rfl
  | n + 1 => by
    have hl : ∀ k acc r, rdsLoop env (srRespDecode env n) k acc r = rdsLoop env' (srRespDecode env' n) k acc r := by
      intro k
      induction k with
      | zero => intro acc r; rfl
      | succ k ih =>
        intro acc r
        unfold rdsLoop
        simp only [ih]
        rw [resp_dec_same env env' n]
        rfl
    funext b
    unfold srRespDecode
    simp only [hl]

theorem rds_dec_same (env env' : Env) (n : Nat) : ∀ k acc r,
    rdsLoop env (srRespDecode env n) k acc r = rdsLoop env' (srRespDecode env' n) k acc r := by
  intro k
  induction k with
  | zero => intro acc r; rfl
  | succ k ih =>
    intro acc r
    unfold rdsLoop
    simp only [ih]
    rw [resp_dec_same env env' n]
    rfl

/-! Numbers that do not fit. -/

theorem wrap_neg (env : Env) {g : ℚ} (h0 : 0 ≤ g) (h1 : g < 4294967296) : wrapping.toU32 (-g) = -env.toU32 g := by
  rcases h0.eq_or_lt with h | h
  · subst h
    rw [neg_zero]
    rw [toU32_eq wrapping 0 0 (by norm_num) (by norm_num) (by norm_num), toU32_eq env 0 0 (by norm_num) (by norm_num) (by norm_num)]
    rfl
  · have e1 : wrapping.toU32 (-g) = wrapping.f2u (-g) := by
      unfold Env.toU32; rw [if_neg]; rintro ⟨a, _⟩; linarith
    have e2 : env.toU32 g = UInt32.ofNat g.floor.toNat := by unfold Env.toU32; rw [if_pos ⟨h0, h1⟩]
    rw [e1, e2]
    show UInt32.ofNat _ = _
    rw [if_pos (by linarith), neg_neg]
    have f0 : 0 ≤ g.floor := by rw [rat_floor_eq]; exact Int.floor_nonneg.mpr h0
    have f1 : g.floor < 4294967296 := by rw [rat_floor_eq]; exact Int.floor_lt.mpr (by exact_mod_cast h1)
    obtain ⟨n, hn⟩ := Int.eq_ofNat_of_zero_le f0
    rw [hn] at f1 ⊢
    apply UInt32.toNat_inj.mp
    rw [UInt32.toNat_neg, UInt32.toNat_ofNat', UInt32.toNat_ofNat']
    simp only [UInt32.size, Int.toNat_natCast]
    omega

theorem coord_neg {c y : ℚ} : rnd (rnd (-y / c) * 4294967295) = -rnd (rnd (y / c) * 4294967295) := by
  rw [neg_div, rnd_neg', neg_mul, rnd_neg']

theorem wrap_lat (env : Env) {y : ℚ} (h0 : 0 ≤ y) (h1 : y ≤ 90) : encLat wrapping (-y) = -encLat env y := by
  obtain ⟨a, b⟩ := coord_fits (c := 90) (by norm_num) h0 h1
  unfold encLat
  rw [coord_neg]
  exact wrap_neg env a (by linarith)

theorem wrap_lon (env : Env) {y : ℚ} (h0 : 0 ≤ y) (h1 : y ≤ 180) : encLon wrapping (-y) = -encLon env y := by
  obtain ⟨a, b⟩ := coord_fits (c := 180) (by norm_num) h0 h1
  unfold encLon
  rw [coord_neg]
  exact wrap_neg env a (by linarith)

theorem rnd_pos {x : ℚ} (h : 0 < x) : 0 < rnd x := by
  obtain ⟨e, b, r⟩ := rnd_rel x
  rw [r]
  rw [pow2_m53, abs_le] at b
  have : 0 < 1 + e := by linarith [b.1]
  positivity

theorem sat_coord {c y : ℚ} (hc : 0 < c) (h : 0 < y) : saturating.toU32 (rnd (rnd (-y / c) * 4294967295)) = 0 := by
  rw [coord_neg]
  have h1 : 0 < rnd (rnd (y / c) * 4294967295) := rnd_pos (mul_pos (rnd_pos (by positivity)) (by norm_num))
  unfold Env.toU32
  rw [if_neg (by rintro ⟨a, _⟩; linarith)]
  show (if _ then (0 : UInt32) else _) = 0
  rw [if_pos (by linarith)]

theorem sat_lat {y : ℚ} (h : 0 < y) : encLat saturating (-y) = 0 := sat_coord (by norm_num) h

theorem sat_lon {y : ℚ} (h : 0 < y) : encLon saturating (-y) = 0 := sat_coord (by norm_num) h

/-- What is read, in terms of the number on the wire. -/
theorem dec_err (c : ℚ) (hc : 0 < c) (hcu : c ≤ 180) (cn : Nat) (hcn : (cn : ℚ) = c) (v : UInt32) :
    |rnd (rnd ((v.toNat : ℚ) * c) / 4294967295) - v.toNat * c / 4294967295| ≤ 1 / 10000000000 := by
  have hv := UInt32.toNat_lt v
  have hcb : cn ≤ 180 := by have : (cn : ℚ) ≤ 180 := by rw [hcn]; exact hcu
                            exact_mod_cast this
  have hex : rnd ((v.toNat : ℚ) * c) = (v.toNat : ℚ) * c := by
    rw [← hcn, ← Nat.cast_mul]
    apply rnd_nat
    calc v.toNat * cn ≤ 2 ^ 32 * 2 ^ 20 := Nat.mul_le_mul (by omega) (by omega)
      _ < 2 ^ 53 := by norm_num
  rw [hex]
  have h := rnd_err ((v.toNat : ℚ) * c / 4294967295)
  rw [pow2_m53] at h
  have hq : (v.toNat : ℚ) ≤ 4294967295 := by exact_mod_cast (by omega : v.toNat ≤ 4294967295)
  have hb : (v.toNat : ℚ) * c / 4294967295 ≤ 180 := by
    rw [div_le_iff₀ (by norm_num)]
    have : (0 : ℚ) ≤ v.toNat := by positivity
    nlinarith
  rw [abs_of_nonneg (by positivity : (0 : ℚ) ≤ (v.toNat : ℚ) * c / 4294967295)] at h
  refine le_trans h ?_
  linarith

/-- The complement on the wire. -/
theorem dec_compl (c : ℚ) (hc : 0 < c) (hcu : c ≤ 180) (cn : Nat) (hcn : (cn : ℚ) = c) (v : UInt32) (hv : v ≠ 0) :
    |rnd (rnd (((-v).toNat : ℚ) * c) / 4294967295) + rnd (rnd ((v.toNat : ℚ) * c) / 4294967295) - c| ≤ 43 / 1000000000 := by
  have a := dec_err c hc hcu cn hcn v
  have b := dec_err c hc hcu cn hcn (-v)
  have hv0 : v.toNat ≠ 0 := fun h => hv (UInt32.toNat_inj.mp (by simpa using h))
  have hlt := UInt32.toNat_lt v
  have e : (-v).toNat + v.toNat = 4294967296 := by
    rw [UInt32.toNat_neg]
    simp only [UInt32.size]
    omega
  have eq : ((-v).toNat : ℚ) = 4294967296 - v.toNat := by
    have : (((-v).toNat + v.toNat : Nat) : ℚ) = 4294967296 := by rw [e]; norm_num
    push_cast at this
    linarith
  have k : ((-v).toNat : ℚ) * c / 4294967295 + v.toNat * c / 4294967295 = c + c / 4294967295 := by
    rw [eq]; field_simp; ring
  have k2 : c / 4294967295 ≤ 180 / 4294967295 := by gcongr
  have k3 : (0 : ℚ) ≤ c / 4294967295 := by positivity
  rw [abs_le] at a b ⊢
  constructor <;> linarith [a.1, a.2, b.1, b.2]

theorem lat_ne_zero (env : Env) {y : ℚ} (h : 1 / 10000000 ≤ y) (h1 : y ≤ 90) : encLat env y ≠ 0 := by
  intro h0
  have := lat_acc env y (by linarith) h1
  rw [h0] at this
  have e : decLat 0 = 0 := by simp [decLat, rnd_zero]
  rw [e, abs_le] at this
  linarith [this.1]

theorem lon_ne_zero (env : Env) {y : ℚ} (h : 1 / 10000000 ≤ y) (h1 : y ≤ 180) : encLon env y ≠ 0 := by
  intro h0
  have := lon_acc env y (by linarith) h1
  rw [h0] at this
  have e : decLon 0 = 0 := by simp [decLon, rnd_zero]
  rw [e, abs_le] at this
  linarith [this.1]

theorem wrap_lat_read {y : ℚ} (h : 1 / 10000000 ≤ y) (h1 : y ≤ 90) :
    |decLat (encLat wrapping (-y)) - (90 - y)| ≤ 1 / 10000000 := by
  rw [wrap_lat wrapping (by linarith) h1]
  have a := dec_compl 90 (by norm_num) (by norm_num) 90 (by norm_num) _ (lat_ne_zero wrapping h h1)
  have b := lat_acc wrapping y (by linarith) h1
  unfold decLat at b ⊢
  rw [abs_le] at a b ⊢
  constructor <;> linarith [a.1, a.2, b.1, b.2]

theorem wrap_lon_read {y : ℚ} (h : 1 / 10000000 ≤ y) (h1 : y ≤ 180) :
    |decLon (encLon wrapping (-y)) - (180 - y)| ≤ 1 / 10000000 := by
  rw [wrap_lon wrapping (by linarith) h1]
  have a := dec_compl 180 (by norm_num) (by norm_num) 180 (by norm_num) _ (lon_ne_zero wrapping h h1)
  have b := lon_acc wrapping y (by linarith) h1
  unfold decLon at b ⊢
  rw [abs_le] at a b ⊢
  constructor <;> linarith [a.1, a.2, b.1, b.2]

theorem coord_below {c x : ℚ} (hc : 0 < c) (h : x < 0) : rnd (rnd (x / c) * 4294967295) < 0 := by
  have h1 := rnd_pos (mul_pos (rnd_pos (div_pos (neg_pos.mpr h) hc)) (by norm_num : (0 : ℚ) < 4294967295))
  have h2 := coord_neg (c := c) (y := -x)
  rw [neg_neg] at h2
  rw [h2]
  linarith

theorem coord_above {c x : ℚ} (hc : 0 < c) (hcu : c ≤ 180) (h : c + 1 / 10000000 ≤ x) : 4294967296 ≤ rnd (rnd (x / c) * 4294967295) := by
  obtain ⟨e1, b1, r1⟩ := rnd_rel (x / c)
  obtain ⟨e2, b2, r2⟩ := rnd_rel (rnd (x / c) * 4294967295)
  rw [r2, r1]
  have hx : 1 + 1 / 1800000000 ≤ x / c := by
    rw [le_div_iff₀ hc]
    nlinarith
  rw [pow2_m53, abs_le] at b1 b2
  have f1 : (1 - 1 / 9007199254740992 : ℚ) ≤ 1 + e1 := by linarith [b1.1]
  have f2 : (1 - 1 / 9007199254740992 : ℚ) ≤ 1 + e2 := by linarith [b2.1]
  calc (4294967296 : ℚ) ≤ (1 + 1 / 1800000000) * (1 - 1 / 9007199254740992) * 4294967295 * (1 - 1 / 9007199254740992) := by norm_num
    _ ≤ x / c * (1 + e1) * 4294967295 * (1 + e2) := by gcongr <;> norm_num

/-- At least the whole seconds. -/
theorem dur_ge (k n : Nat) (hk : k < 9223372037) (hn : n < 1000000000) :
    (k : ℚ) ≤ durSeconds ((k : Int) * 1000000000 + n) ∧ durSeconds (-((k : Int) * 1000000000 + n)) = -durSeconds ((k : Int) * 1000000000 + n) := by
  have e1 : Int.tdiv ((k : Int) * 1000000000 + n) 1000000000 = k := by
    rw [Int.tdiv_eq_ediv_of_nonneg (by omega)]; omega
  have e2 : Int.tmod ((k : Int) * 1000000000 + n) 1000000000 = n := by
    rw [Int.tmod_eq_emod_of_nonneg (by omega)]; omega
  constructor
  · unfold durSeconds
    rw [e1, e2]
    obtain ⟨f0, f1⟩ := frac_bounds n hn
    have hk' : (k : ℚ) < 9223372037 := by exact_mod_cast hk
    push_cast
    rw [rnd_nat k (by omega)]
    have k0 : (0 : ℚ) ≤ k := by positivity
    exact rnd_ge (by linarith) (by linarith) (by linarith)
  · unfold durSeconds
    rw [Int.neg_tdiv, Int.neg_tmod, e1, e2]
    push_cast
    rw [neg_div, rnd_neg', rnd_neg', ← neg_add, rnd_neg']

theorem dur_above {t : GoTime} (h : timeOffset + (4294967296 : Int) * 1000000000 ≤ t) :
    4294967296 ≤ durSeconds (GoTime.sub t timeOffset) := by
  have h' : (4294967296 : Int) * 1000000000 ≤ (t : Int) - timeOffset := by
    have : (timeOffset : Int) + (4294967296 : Int) * 1000000000 ≤ t := h
    linarith
  obtain ⟨D, hD⟩ : ∃ D : Nat, GoTime.sub t timeOffset = D ∧ 4294967296 * 1000000000 ≤ D ∧ D ≤ 9223372036854775807 := by
    refine ⟨(GoTime.sub t timeOffset).toNat, ?_⟩
    unfold GoTime.sub
    generalize (t : Int) - timeOffset = z at h' ⊢
    omega
  obtain ⟨hD, d1, d2⟩ := hD
  have e : (D : Int) = ((D / 1000000000 : Nat) : Int) * 1000000000 + ((D % 1000000000 : Nat) : Int) := by omega
  rw [hD, e]
  have := (dur_ge (D / 1000000000) (D % 1000000000) (by omega) (by omega)).1
  refine le_trans ?_ this
  have : 4294967296 ≤ D / 1000000000 := by omega
  exact_mod_cast this

theorem dur_below {t : GoTime} (h : t ≤ timeOffset - 1000000000) : durSeconds (GoTime.sub t timeOffset) ≤ -1 := by
  have h' : (t : Int) - timeOffset ≤ -1000000000 := by
    have : (t : Int) ≤ timeOffset - 1000000000 := h
    linarith
  obtain ⟨D, hD⟩ : ∃ D : Nat, GoTime.sub t timeOffset = -(D : Int) ∧ 1000000000 ≤ D ∧ D ≤ 9223372036854775808 := by
    refine ⟨(-GoTime.sub t timeOffset).toNat, ?_⟩
    have hz : ∀ z : Int, z ≤ -1000000000 → max (-9223372036854775808) (min 9223372036854775807 z) =
        -((-max (-9223372036854775808) (min 9223372036854775807 z)).toNat : Int) ∧
        1000000000 ≤ (-max (-9223372036854775808) (min 9223372036854775807 z)).toNat ∧
        (-max (-9223372036854775808) (min 9223372036854775807 z)).toNat ≤ 9223372036854775808 := by
      intro z hz
      have : max (-9223372036854775808) (min 9223372036854775807 z) = max (-9223372036854775808) z := by
        rw [min_eq_right (by linarith)]
      rw [this]
      omega
    exact hz _ h'
  obtain ⟨hD, d1, d2⟩ := hD
  have e : (D : Int) = ((D / 1000000000 : Nat) : Int) * 1000000000 + ((D % 1000000000 : Nat) : Int) := by omega
  obtain ⟨a, b⟩ := dur_ge (D / 1000000000) (D % 1000000000) (by omega) (by omega)
  rw [hD, e, b]
  have : 1 ≤ D / 1000000000 := by omega
  have : (1 : ℚ) ≤ (D / 1000000000 : Nat) := by exact_mod_cast this
  linarith

end Egts
