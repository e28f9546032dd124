import Verif.Proofs.Layout

/-! # Records, subrecords and responses on arbitrary bytes -/

namespace Egts
open Layout

theorem headLength_ge (b : Bytes) : 7 ≤ ServiceDataRecord.headLength b := by unfold ServiceDataRecord.headLength; omega

theorem sdrHead_at (b : Bytes) (s : ServiceDataRecord) (r : Bytes) :
    sdrHead b = .ok (s, r) ↔ ServiceDataRecord.headLength b ≤ b.length ∧ s = ServiceDataRecord.head b ∧
      r = b.drop (ServiceDataRecord.headLength b) := by
  by_cases hl : 5 ≤ b.length
  · have hr : ∀ t : Bytes, t.length = 2 → le16 ((b.drop 2).take t.length ++ t.drop (b.length - 2)) = UInt16.ofNat (num b 2 2) := by
      intro t ht
      rw [← le16_at, ht, List.drop_eq_nil_of_le (as := t) (by omega), List.drop_eq_nil_of_le (as := zeros 2) (by rw [zeros_length]; omega)]
    have ht : ((b.drop 0).take 2 ++ (zeros 2).drop (b.length - 0)).length = 2 := by
      rw [List.length_append, List.length_take, List.length_drop, List.length_drop, zeros_length]; omega
    rw [sdrHead]
    conv => lhs; rw [show b = b.drop 0 from rfl]
    have bb : ∀ {β : Type} (y : β) (buf : Bytes) (f : Bytes × Bytes → Except Err β), (readerRead buf (b.drop 2) >>= f) = .ok y ↔
        2 < b.length ∧ f ((b.drop 2).take buf.length ++ buf.drop (b.length - 2), b.drop (2 + buf.length)) = .ok y :=
      fun y buf f => bind_ok_iff fun ⟨a, r⟩ => by rw [readerRead_at, Prod.mk.injEq]
    simp only [bind_read, Nat.zero_add]
    simp only [bb, ht, bind_readByte, bind_optU32, bind_optTime, fl0, fl1, fl2, fl35, fl5, fl6, fl7, le16_at, ok_pure, Prod.mk.injEq,
      Nat.reduceAdd]
    have e1 : 5 + 4 * bitAt b 4 0 + 4 * bitAt b 4 1 = 5 + 4 * (bitAt b 4 0 + bitAt b 4 1) := by omega
    have e2 : 5 + 4 * (bitAt b 4 0 + bitAt b 4 1) + 4 * bitAt b 4 2 = 5 + 4 * (bitAt b 4 0 + bitAt b 4 1 + bitAt b 4 2) := by omega
    have e3 : 5 + 4 * (bitAt b 4 0 + bitAt b 4 1 + bitAt b 4 2) + 1 = 6 + 4 * (bitAt b 4 0 + bitAt b 4 1 + bitAt b 4 2) := by omega
    have e4 : 6 + 4 * (bitAt b 4 0 + bitAt b 4 1 + bitAt b 4 2) + 1 = ServiceDataRecord.headLength b := by
      unfold ServiceDataRecord.headLength; omega
    have hr2 := hr _ ht
    rw [ht] at hr2
    rw [hr2, e1, e2, e3, e4]
    have hv := e4
    constructor
    · rintro ⟨_, _, _, _, _, _, _, h, h1, h2⟩
      exact ⟨by omega, h1, h2⟩
    · rintro ⟨h, h1, h2⟩
      exact ⟨by omega, by omega, by omega, by omega, by omega, by omega, by omega, by omega, h1, h2⟩
  · have := headLength_ge b
    constructor
    · intro h
      obtain ⟨_, _, _, _, _, _, rfl, _⟩ := sdrHead_ok h
      simp at hl
    · rintro ⟨h, _⟩; omega

theorem rl_toNat (b : Bytes) : (ServiceDataRecord.head b).recordLength.toNat = num b 0 2 := by
  show (UInt16.ofNat (num b 0 2)).toNat = _
  rw [UInt16.toNat_ofNat', Nat.mod_eq_of_lt (num2_lt b 0)]

theorem text_eq (b : Bytes) (o n : Nat) : (b.drop o).take n ++ (zeros n).drop (b.length - o) = text b o n := by
  rw [text, drop_zeros]

theorem sdrStep_at (g : Bytes → Except Err (List RecordData)) (b : Bytes) (s : ServiceDataRecord) (r : Bytes) :
    sdrStep g b = .ok (s, r) ↔
      (b.length = ServiceDataRecord.headLength b ∧ s = ServiceDataRecord.head b ∧ r = []) ∨
      (ServiceDataRecord.headLength b < b.length ∧ ∃ rds, g (text b (ServiceDataRecord.headLength b) (num b 0 2)) = .ok rds ∧
        s = { ServiceDataRecord.head b with recordDataSet := rds } ∧ r = b.drop (ServiceDataRecord.headLength b + num b 0 2)) := by
  rw [sdrStep, bind_ok_iff (P := ServiceDataRecord.headLength b ≤ b.length)
    (v := (ServiceDataRecord.head b, b.drop (ServiceDataRecord.headLength b))) (fun ⟨a, r⟩ => by rw [sdrHead_at, Prod.mk.injEq])]
  by_cases h : ServiceDataRecord.headLength b < b.length
  · have hne : b.drop (ServiceDataRecord.headLength b) ≠ [] := by intro e; have := congrArg List.length e; simp at this; omega
    simp only [if_pos hne, bind_read, rl_toNat, text_eq, bind_eq_ok (x := g _), ok_pure, Prod.mk.injEq]
    constructor
    · rintro ⟨_, _, rds, h1, h2, h3⟩
      exact .inr ⟨h, rds, h1, h2, h3⟩
    · rintro (⟨h1, _⟩ | ⟨_, rds, h1, h2, h3⟩)
      · omega
      · exact ⟨by omega, h, rds, h1, h2, h3⟩
  · have hnil : b.drop (ServiceDataRecord.headLength b) = [] := List.drop_eq_nil_of_le (by omega)
    simp only [hnil, ne_eq, not_true_eq_false, if_false, ok_pure, Prod.mk.injEq]
    constructor
    · rintro ⟨h1, h2, h3⟩
      exact .inl ⟨by omega, h2, h3⟩
    · rintro (⟨h1, h2, h3⟩ | ⟨h1, _⟩)
      · exact ⟨by omega, h2, h3⟩
      · omega

theorem rdStep_at (env : Env) (f : Bytes → Except Err SrResponse) (b : Bytes) (rd : Option RecordData) (r : Bytes) :
    rdStep env f b = .ok (rd, r) ↔ 2 ≤ b.length ∧
      ∃ d, subDecode env f (UInt8.ofNat (byteAt b 0)) (UInt16.ofNat (num b 1 2)) ((b.drop 3).take (num b 1 2)) = .ok d ∧
        rd = d.map (fun d => ⟨UInt8.ofNat (byteAt b 0), UInt16.ofNat (num b 1 2), some d⟩) ∧ r = b.drop (3 + num b 1 2) := by
  rw [rdStep]
  conv => lhs; rw [show b = b.drop 0 from rfl]
  simp only [bind_readByte]
  rw [bind_bread _ _ _ _ (by omega)]
  have e : (UInt16.ofNat (num b 1 2)).toNat = num b 1 2 := by rw [UInt16.toNat_ofNat', Nat.mod_eq_of_lt (num2_lt b 1)]
  simp only [Nat.zero_add, Nat.reduceAdd, le16_at, bind_eq_ok, e, List.drop_drop, ok_pure, Prod.mk.injEq]
  constructor
  · rintro ⟨_, h, d, h1, h2, h3⟩; exact ⟨h, d, h1, h2, h3⟩
  · rintro ⟨h, d, h1, h2, h3⟩; exact ⟨by omega, h, d, h1, h2, h3⟩

/-! ## What the decoders accept is in the layout -/

theorem subrecords_sound (env : Env) (f : Bytes → Except Err SrResponse)
    (hf : ∀ s y, f s = .ok y → ∀ len, IsSubrecord 0 len s (.resp y)) :
    ∀ n acc b out, b.length ≤ n → rdsLoop env f n acc b = .ok out → ∃ rds, IsSubrecords b rds ∧ out = acc ++ rds := by
  intro n
  induction n with
  | zero =>
    intro acc b out hn h
    have : b = [] := List.length_eq_zero_iff.mp (by omega)
    subst this
    rw [rdsLoop] at h; cases h
    exact ⟨[], .nil, by simp⟩
  | succ n ih =>
    intro acc b out hn h
    rw [rdsLoop] at h
    by_cases hb : b = []
    · rw [if_pos hb] at h; cases h
      subst hb
      exact ⟨[], .nil, by simp⟩
    · rw [if_neg hb] at h
      simp only [bind_eq_ok, Prod.exists] at h
      obtain ⟨rd, r, h1, h2⟩ := h
      have hlt := rdStep_lt h1
      obtain ⟨hl, d, h3, rfl, rfl⟩ := (rdStep_at _ _ _ _ _).mp h1
      obtain ⟨rds, h4, rfl⟩ := ih _ _ _ (by omega) h2
      cases d with
      | none =>
        rw [sub_none_iff, u8_toNat] at h3
        exact ⟨rds, .unknown b rds hl h3 h4, by simp⟩
      | some d =>
        rw [sub_iff, u8_toNat, UInt16.toNat_ofNat', Nat.mod_eq_of_lt (num2_lt b 1)] at h3
        refine ⟨_, .known b d rds hl ?_ h4, by simp⟩
        rcases h3 with h3 | ⟨h3, y, h5, rfl⟩
        · exact .plain _ _ _ _ h3
        · rw [h3]; exact hf _ _ h5 _

theorem records_sound (g : Bytes → Except Err (List RecordData)) (hg : ∀ s rds, g s = .ok rds → IsSubrecords s rds) :
    ∀ n acc b out, b.length ≤ n → sdsLoop g n acc b = .ok out → ∃ rs, IsRecords b rs ∧ out = acc ++ rs := by
  intro n
  induction n with
  | zero =>
    intro acc b out hn h
    have : b = [] := List.length_eq_zero_iff.mp (by omega)
    subst this
    rw [sdsLoop] at h; cases h
    exact ⟨[], .nil, by simp⟩
  | succ n ih =>
    intro acc b out hn h
    rw [sdsLoop] at h
    by_cases hb : b = []
    · rw [if_pos hb] at h; cases h
      subst hb
      exact ⟨[], .nil, by simp⟩
    · rw [if_neg hb] at h
      simp only [bind_eq_ok, Prod.exists] at h
      obtain ⟨sdr, r, h1, h2⟩ := h
      have hlt := sdrStep_lt h1
      obtain ⟨rs, h4, rfl⟩ := ih _ _ _ (by omega) h2
      rcases (sdrStep_at _ _ _ _).mp h1 with ⟨h5, rfl, rfl⟩ | ⟨h5, rds, h6, rfl, rfl⟩
      · cases h4 with
        | nil => exact ⟨_, .bare b h5, by simp⟩
        | bare _ h => have := headLength_ge []; simp at h; omega
        | cons _ _ _ h => simp at h
      · exact ⟨_, .cons b rds rs h5 (hg _ _ h6) h4, by simp⟩

theorem resp_sound (env : Env) : ∀ depth s y, srRespDecode env depth s = .ok y → ∀ len, IsSubrecord 0 len s (.resp y) := by
  intro depth
  induction depth with
  | zero => intro s y h; cases h
  | succ depth ih =>
    intro s y h len
    simp only [srRespDecode, bind_eq_ok, Prod.exists, ok_pure] at h
    obtain ⟨z, r, h1, out, h2, rfl⟩ := h
    obtain ⟨hl, rfl, rfl⟩ := (resp_read _ _ _).mp h1
    obtain ⟨rs, h3, _⟩ := records_sound _ (fun s rds h => by
      obtain ⟨rds', h4, h5⟩ := subrecords_sound env _ ih _ _ _ _ (Nat.le_refl _) h
      rw [h5]; exact h4) _ _ _ _ (Nat.le_refl _) h2
    exact .response len s rs hl h3

/-! ## What is in the layout is accepted -/

mutual

theorem records_complete (env : Env) : ∀ {b rs}, IsRecords b rs →
    ∃ k0, ∀ k, k0 ≤ k → ∀ acc n, b.length ≤ n → sdsLoop (rdsDecodeD env k) n acc b = .ok (acc ++ rs)
  | _, _, .nil => ⟨0, fun k _ acc n _ => by rw [sdsLoop_nil_of_short, List.append_nil]⟩
  | _, _, .bare b h => ⟨0, fun k _ acc n hn => by
      have h7 := headLength_ge b
      obtain ⟨m, rfl⟩ : ∃ m, n = m + 1 := ⟨n - 1, by omega⟩
      rw [sdsLoop, if_neg (by intro e; subst e; simp at h; omega),
        (sdrStep_at _ _ _ _).mpr (.inl ⟨h, rfl, rfl⟩), ok_bind]
      exact sdsLoop_nil_of_short _ _ _⟩
  | _, _, .cons b rds rs h h1 h2 => by
    obtain ⟨k1, e1⟩ := subrecords_complete env h1
    obtain ⟨k2, e2⟩ := records_complete env h2
    refine ⟨max k1 k2, fun k hk acc n hn => ?_⟩
    have h7 := headLength_ge b
    obtain ⟨m, rfl⟩ : ∃ m, n = m + 1 := ⟨n - 1, by omega⟩
    have e3 : rdsDecodeD env k (text b (ServiceDataRecord.headLength b) (num b 0 2)) = .ok rds := e1 k (by omega) [] _ (Nat.le_refl _)
    rw [sdsLoop, if_neg (by intro e; subst e; simp at h),
      (sdrStep_at _ _ _ _).mpr (.inr ⟨h, rds, e3, rfl, rfl⟩), ok_bind]
    show sdsLoop (rdsDecodeD env k) m _ _ = _
    rw [e2 k (by omega) _ _ (by rw [List.length_drop]; omega), List.append_assoc, List.singleton_append]

theorem subrecords_complete (env : Env) : ∀ {b rds}, IsSubrecords b rds →
    ∃ k0, ∀ k, k0 ≤ k → ∀ acc n, b.length ≤ n → rdsLoop env (srRespDecode env k) n acc b = .ok (acc ++ rds)
  | _, _, .nil => ⟨0, fun k _ acc n _ => by rw [rdsLoop_nil_of_short, List.append_nil]⟩
  | _, _, .known b d rds h h1 h2 => by
    obtain ⟨k1, e1⟩ := subrecord_complete env h1
    obtain ⟨k2, e2⟩ := subrecords_complete env h2
    refine ⟨max k1 k2, fun k hk acc n hn => ?_⟩
    obtain ⟨m, rfl⟩ : ∃ m, n = m + 1 := ⟨n - 1, by omega⟩
    have e3 : subDecode env (srRespDecode env k) (UInt8.ofNat (byteAt b 0)) (UInt16.ofNat (num b 1 2)) ((b.drop 3).take (num b 1 2)) =
        .ok (some d) := by
      rw [sub_iff, u8_toNat, UInt16.toNat_ofNat', Nat.mod_eq_of_lt (num2_lt b 1)]
      rcases e1 k (by omega) with h | ⟨h, y, hy⟩
      · exact .inl h
      · exact .inr ⟨h, y, hy⟩
    rw [rdsLoop, if_neg (by intro e; subst e; simp at h), (rdStep_at _ _ _ _ _).mpr ⟨h, some d, e3, rfl, rfl⟩, ok_bind]
    show rdsLoop env (srRespDecode env k) m _ _ = _
    rw [e2 k (by omega) _ _ (by rw [List.length_drop]; omega)]
    simp
  | _, _, .unknown b rds h h1 h2 => by
    obtain ⟨k2, e2⟩ := subrecords_complete env h2
    refine ⟨k2, fun k hk acc n hn => ?_⟩
    obtain ⟨m, rfl⟩ : ∃ m, n = m + 1 := ⟨n - 1, by omega⟩
    rw [rdsLoop, if_neg (by intro e; subst e; simp at h),
      (rdStep_at _ _ _ _ _).mpr ⟨h, none, (sub_none_iff _ _ _ _ _).mpr (by rwa [u8_toNat]), rfl, rfl⟩, ok_bind]
    show rdsLoop env (srRespDecode env k) m _ _ = _
    rw [e2 k (by omega) _ _ (by rw [List.length_drop]; omega)]
    simp

theorem subrecord_complete (env : Env) : ∀ {t len b d}, IsSubrecord t len b d →
    ∃ k0, ∀ k, k0 ≤ k → IsKind t len b d ∨ (t = 0 ∧ ∃ y, srRespDecode env k b = .ok y ∧ d = .resp y)
  | _, _, _, _, .plain t len b d h => ⟨0, fun _ _ => .inl h⟩
  | _, _, _, _, .response len b rs h h1 => by
    obtain ⟨k1, e1⟩ := records_complete env h1
    refine ⟨k1 + 1, fun k hk => .inr ⟨rfl, _, ?_, rfl⟩⟩
    obtain ⟨m, rfl⟩ : ∃ m, k = m + 1 := ⟨k - 1, by omega⟩
    have e2 := e1 m (by omega) [] _ (Nat.le_refl _)
    unfold rdsDecodeD at e2
    rw [srRespDecode, (resp_read b (SrResponse.read b) (b.drop 3)).mpr ⟨h, rfl, rfl⟩, ok_bind]
    show (sdsLoop _ _ _ _ >>= fun _ => _) = _
    rw [e2]
    rfl

end

theorem sds_iff (env : Env) (prior out : List ServiceDataRecord) (b : Bytes) :
    ServiceDataSet.decode env prior b = .ok out ↔ ∃ rs, IsRecords b rs ∧ out = prior ++ rs := by
  constructor
  · intro h
    exact records_sound _ (fun s rds h => by
      obtain ⟨rds', h4, h5⟩ := subrecords_sound env _ (resp_sound env _) _ _ _ _ (Nat.le_refl _) h
      rw [h5]; exact h4) _ _ _ _ (Nat.le_refl _) h
  · rintro ⟨rs, h, rfl⟩
    obtain ⟨k0, hk⟩ := records_complete env h
    have := hk (max k0 (depthFor b.length)) (by omega) prior _ (Nat.le_refl _)
    rwa [sdsDecode_depth env _ _ _ _ (by omega) (Nat.le_refl _)] at this

theorem rds_iff (env : Env) (prior out : List RecordData) (b : Bytes) :
    RecordDataSet.decode env prior b = .ok out ↔ ∃ rds, IsSubrecords b rds ∧ out = prior ++ rds := by
  constructor
  · intro h
    exact subrecords_sound env _ (resp_sound env _) _ _ _ _ (Nat.le_refl _) h
  · rintro ⟨rs, h, rfl⟩
    obtain ⟨k0, hk⟩ := subrecords_complete env h
    have := hk (max k0 (depthFor b.length)) (by omega) prior _ (Nat.le_refl _)
    rwa [rdsDecode_depth env _ _ _ _ (by omega) (Nat.le_refl _)] at this

theorem records_unique {b rs rs'} (h : IsRecords b rs) (h' : IsRecords b rs') : rs = rs' := by
  have e := (sds_iff ⟨fun _ => 0⟩ [] rs b).mpr ⟨rs, h, rfl⟩
  have e' := (sds_iff ⟨fun _ => 0⟩ [] rs' b).mpr ⟨rs', h', rfl⟩
  rw [e] at e'; cases e'; rfl

theorem subrecords_unique {b rds rds'} (h : IsSubrecords b rds) (h' : IsSubrecords b rds') : rds = rds' := by
  have e := (rds_iff ⟨fun _ => 0⟩ [] rds b).mpr ⟨rds, h, rfl⟩
  have e' := (rds_iff ⟨fun _ => 0⟩ [] rds' b).mpr ⟨rds', h', rfl⟩
  rw [e] at e'; cases e'; rfl

theorem resp_iff (env : Env) (y0 y : SrResponse) (b : Bytes) :
    SrResponse.decode env y0 b = .ok y ↔ 3 ≤ b.length ∧ (∃ rs, IsRecords (b.drop 3) rs) ∧ y = SrResponse.read b := by
  constructor
  · intro h
    have h1 := resp_sound env _ _ _ h 0
    generalize hd : SubData.resp y = d at h1
    cases h1 with
    | plain _ _ _ _ h => subst hd; simp [IsKind] at h
    | response _ _ rs hl hr => cases hd; exact ⟨hl, ⟨rs, hr⟩, rfl⟩
  · rintro ⟨h1, ⟨rs, h2⟩, rfl⟩
    obtain ⟨k0, hk⟩ := subrecord_complete env (.response 0 b rs h1 h2)
    rcases hk (max k0 (b.length + 1)) (by omega) with h | ⟨_, y, hy, e⟩
    · simp [IsKind] at h
    · cases e
      rw [SrResponse.decode, ← hy]
      exact resp_depth env _ _ _ (by unfold depthFor; omega) (by omega)

theorem ptResp_iff (env : Env) (y0 y : PtResponse) (b : Bytes) (h0 : y0.sdr = none) :
    PtResponse.decode env y0 b = .ok y ↔ IsResponse b y := by
  rw [PtResponse.decode]
  conv => lhs; rw [show b = b.drop 0 from rfl, bind_bread _ _ _ _ (by omega)]
  have e : (UInt16.ofNat (num b 0 2)).toNat = num b 0 2 := by rw [UInt16.toNat_ofNat', Nat.mod_eq_of_lt (num2_lt b 0)]
  simp only [bind_readByte, Nat.zero_add, Nat.reduceAdd, le16_at, IsResponse]
  by_cases h : 3 < b.length
  · have hne : b.drop 3 ≠ [] := by intro e; have := congrArg List.length e; simp at this; omega
    simp only [if_pos hne, bind_eq_ok, ok_pure, sds_iff, List.nil_append]
    constructor
    · rintro ⟨_, h2, sds, ⟨rs, h3, rfl⟩, rfl⟩
      exact ⟨h2, e, u8_toNat b 2, .inr ⟨h, _, h3, rfl⟩⟩
    · rintro ⟨h1, h2, h3, ⟨h4, _⟩ | ⟨_, rs, h4, h5⟩⟩
      · omega
      · refine ⟨by omega, h1, rs, ⟨rs, h4, rfl⟩, ?_⟩
        rw [← h2, ← h3, ← h5]; simp
  · have hnil : b.drop 3 = [] := List.drop_eq_nil_of_le (by omega)
    simp only [hnil, ne_eq, not_true_eq_false, if_false, ok_pure, h0]
    constructor
    · rintro ⟨_, h2, rfl⟩
      exact ⟨h2, e, u8_toNat b 2, .inl ⟨by omega, rfl⟩⟩
    · rintro ⟨h1, h2, h3, ⟨h4, h5⟩ | ⟨h4, _⟩⟩
      · refine ⟨by omega, h1, ?_⟩
        rw [← h2, ← h3, ← h5]; simp
      · omega

end Egts
