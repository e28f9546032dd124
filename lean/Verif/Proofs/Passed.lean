import Verif.Spec.Passed
import Verif.Proofs.Relay
import Verif.Proofs.Reencode
import Verif.Props.Subrecords

/-! # Packages passed on from relay to relay: lemmas -/

namespace Egts.Pass
open Layout

theorem present_present {α : Type} (f : Bytes) (x y : α) : present f (present f x y) y = present f x y := by
  unfold present; split <;> rfl

theorem low24_low24 (v : UInt32) : low24 (low24 v) = low24 v := by
  have hv := v.toNat_lt
  unfold low24
  rw [UInt32.toNat_ofNat']
  congr 1
  omega

theorem present_low (f : Bytes) (x y : UInt32) : present f (low24 (present f (low24 x) y)) y = present f (low24 x) y := by
  unfold present; split
  · exact low24_low24 x
  · rfl

theorem onward_succ (f : UInt32 → UInt32) (n : Nat) (v : UInt32) : f^[n + 1] v = f (f^[n] v) := Function.iterate_succ_apply' f n v

theorem moved_zero {env : Env} {x y : SubData} (h : x.Same env y) : x.Moved env 0 y := by
  cases x <;> cases y <;> first | exact h | exact h.elim | skip
  obtain ⟨_, _, h1, h2, h3⟩ := h
  show _ = _
  simp only [Function.iterate_zero, id]
  rw [← h1, ← h2]
  exact h3

theorem moved_succ {env : Env} {n : Nat} {x y z : SubData} (h : x.Moved env n y) (h' : y.Same env z) : x.Moved env (n + 1) z := by
  cases x with
  | pos a =>
    cases y <;> first | exact h.elim | skip
    cases z <;> first | exact h'.elim | skip
    rename_i b c
    obtain ⟨_, _, h1, h2, h3⟩ := h'
    cases (h : b = _)
    show c = _
    rw [h3, h1, h2, onward_succ, onward_succ]
    simp only [present_present]
    rfl
  | term a =>
    cases y <;> first | exact h.elim | skip
    cases z <;> first | exact h'.elim | skip
    cases (h : _ = _); cases (h' : _ = _)
    show _ = _
    simp only [SrTermIdentity.onto, present_present]
  | extPos a =>
    cases y <;> first | exact h.elim | skip
    cases z <;> first | exact h'.elim | skip
    cases (h : _ = _); cases (h' : _ = _)
    show _ = _
    simp only [SrExtPosData.onto, present_present]
  | adSens a =>
    cases y <;> first | exact h.elim | skip
    cases z <;> first | exact h'.elim | skip
    cases (h : _ = _); cases (h' : _ = _)
    show _ = _
    simp only [SrAdSensorsData.onto, present_present, present_low]
  | counters a =>
    cases y <;> first | exact h.elim | skip
    cases z <;> first | exact h'.elim | skip
    cases (h : _ = _); cases (h' : _ = _)
    show _ = _
    simp only [SrCountersData.onto, present_low]
  | _ a =>
    cases y <;> first | exact h.elim | skip
    cases z <;> first | exact h'.elim | skip
    cases (h : _ = _); cases (h' : _ = _)
    exact (rfl : a = a)

theorem moved_code {env : Env} {n : Nat} {x y : SubData} (h : x.Moved env n y) : y.code = x.code := by
  cases x <;> cases y <;> first | rfl | exact h.elim

theorem opt24_length (f : Bytes) (x y : UInt32) : (optBytes f (put24 x)).length = (optBytes f (put24 y)).length := by
  unfold optBytes; split <;> rfl

/-- What has been passed on can be carried again, in as many bytes. -/
theorem moved_again {env : Env} {n : Nat} {x y : SubData} (hw : x.WF env) (hs : x.Sound) (h : x.Moved env n y) :
    y.WF env ∧ y.Sound ∧ ∀ b, x.encode env = .ok b → ∃ b', y.encode env = .ok b' ∧ b'.length = b.length := by
  cases x with
  | pos a =>
    cases y <;> first | exact h.elim | skip
    cases (h : _ = _)
    obtain ⟨⟨f1, f2, f3, f4, f5, f6, f7, f8, f9, f10, f11, f12, f13, f14⟩, _, _⟩ := hw
    refine ⟨⟨⟨f1, f2, f3, f4, f5, f6, f7, f8, f9, f10, f11, f12, f13, ?_⟩, ⟨(decLat_range _).2.1, (decLat_range _).1⟩, ⟨(decLon_range _).2.1, (decLon_range _).1⟩⟩, hs, ?_⟩
    · intro ha
      show (present a.alte a.altitude 0).toNat < _
      have ha : a.alte = go!"1" := ha
      rw [present, if_pos ha]
      exact f14 ha
    · intro b hb
      obtain ⟨fl, e1, e2⟩ := bind_eq_ok.mp (show SrPosData.encode env a = .ok b from hb)
      cases e2
      refine ⟨_, bind_eq_ok.mpr ⟨fl, e1, rfl⟩, ?_⟩
      simp only [List.length_append, opt24_length a.alte (present a.alte a.altitude 0) a.altitude]
      rfl
  | term a =>
    cases y <;> first | exact h.elim | skip
    cases (h : _ = _)
    obtain ⟨f1, f2, f3, f4, f5, f6, f7, f8, g1, g2, g3, g4, g5⟩ := hw
    refine ⟨⟨f1, f2, f3, f4, f5, f6, f7, f8, ?_, ?_, ?_, ?_, ?_⟩, trivial, fun b hb => ⟨b, ?_, rfl⟩⟩
    · intro e; show List.length (present _ _ _) = _; rw [present, if_pos (show a.imeie = go!"1" from e)]; exact g1 e
    · intro e; show List.length (present _ _ _) = _; rw [present, if_pos (show a.imsie = go!"1" from e)]; exact g2 e
    · intro e; show List.length (present _ _ _) = _; rw [present, if_pos (show a.lngce = go!"1" from e)]; exact g3 e
    · intro e; show List.length (present _ _ _) = _; rw [present, if_pos (show a.nide = go!"1" from e)]; exact g4 e
    · intro e; show List.length (present _ _ _) = _; rw [present, if_pos (show a.mne = go!"1" from e)]; exact g5 e
    · exact (term_reencode a).trans hb
  | extPos a =>
    cases y <;> first | exact h.elim | skip
    cases (h : _ = _)
    exact ⟨hw, trivial, fun b hb => ⟨b, (extPos_reencode a).trans hb, rfl⟩⟩
  | adSens a =>
    cases y <;> first | exact h.elim | skip
    cases (h : _ = _)
    exact ⟨hw, hs, fun b hb => ⟨b, (adSens_reencode a).trans hb, rfl⟩⟩
  | counters a =>
    cases y <;> first | exact h.elim | skip
    cases (h : _ = _)
    exact ⟨hw, hs, fun b hb => ⟨b, (counters_reencode a).trans hb, rfl⟩⟩
  | _ a =>
    cases y <;> first | exact h.elim | skip
    cases (h : _ = _)
    exact ⟨hw, hs, fun b hb => ⟨b, hb, rfl⟩⟩

theorem rd_length {env : Env} {rd : RecordData} {d : SubData} {b : Bytes} (hd : rd.subrecordData = some d) (ht : d.TypeOK rd.subrecordType)
    (hb : d.encode env = .ok b) : ∃ w, rd.encode env = .ok w ∧ w.length = b.length + 3 := by
  unfold RecordData.encode
  rw [hd, typeOK_encode d _ ht]
  simp only [ok_bind, hb, liftErr, pure_eq_ok, Except.ok.injEq, exists_eq_left', List.length_append, put16, List.length_cons, List.length_nil]
  omega

theorem moved_type {env : Env} {n : Nat} {x y : SubData} (h : x.Moved env n y) {t : UInt8} (ht : x.TypeOK t) :
    y.TypeOK (x.wireType t) ∧ y.wireType (x.wireType t) = x.wireType t := by
  have hc := moved_code h
  unfold SubData.TypeOK SubData.wireType
  rw [hc]
  rcases ht with h | ⟨h, _⟩ | ⟨h, hc2⟩
  · rw [← h]
    by_cases h0 : t = 0
    · simp [h0]
    · simp [h0]
  · simp only [h, if_true, true_or, true_and]
    split
    · rename_i h; rw [h]
    · rfl
  · rw [h, if_neg (show ¬ (20 : UInt8) = 0 by decide), if_neg (show ¬ (20 : UInt8) = 0 by decide)]
    exact ⟨.inr (.inr ⟨rfl, hc2⟩), rfl⟩

theorem rd_again {env : Env} {n : Nat} {a b : RecordData} (hw : a.WF env) (hs : a.Sound) (h : a.Rel env (SubData.Moved env n) b) :
    b.WF env ∧ b.Sound ∧ ∃ v w, a.encode env = .ok v ∧ b.encode env = .ok w ∧ w.length = v.length := by
  obtain ⟨d, enc, hd, hwd, ht, he, hlen, _⟩ := hw
  obtain ⟨x, y, enc', h1, h2, h3, h4, h5, h6⟩ := h
  rw [hd] at h1; cases h1
  rw [he] at h5; cases h5
  obtain ⟨g1, g2, g3⟩ := moved_again hwd (hs d hd) h3
  obtain ⟨b', e1, e2⟩ := g3 enc he
  obtain ⟨t1, t2⟩ := moved_type h3 ht
  rw [← h4] at t1
  refine ⟨⟨y, b', h2, g1, t1, e1, by omega, .inr (by omega)⟩, ?_, ?_⟩
  · intro z hz
    rw [h2] at hz; cases hz
    exact g2
  · obtain ⟨v, v1, v2⟩ := rd_length hd ht he
    obtain ⟨w, w1, w2⟩ := rd_length h2 t1 e1
    exact ⟨v, w, v1, w1, by omega⟩

theorem rds_again {env : Env} {n : Nat} {a b : List RecordData} (hw : ∀ x ∈ a, x.WF env) (hs : ∀ x ∈ a, x.Sound)
    (h : List.Forall₂ (RecordData.Rel env (SubData.Moved env n)) a b) :
    (∀ x ∈ b, x.WF env) ∧ (∀ x ∈ b, x.Sound) ∧ ∃ v w, RecordDataSet.encode env a = .ok v ∧ RecordDataSet.encode env b = .ok w ∧ w.length = v.length := by
  induction h with
  | nil => exact ⟨by simp, by simp, [], [], rfl, rfl, rfl⟩
  | cons h1 _ ih =>
    obtain ⟨i1, i2, v, w, i3, i4, i5⟩ := ih (fun x hx => hw x (by simp [hx])) (fun x hx => hs x (by simp [hx]))
    obtain ⟨j1, j2, v', w', j3, j4, j5⟩ := rd_again (hw _ (by simp)) (hs _ (by simp)) h1
    refine ⟨?_, ?_, v' ++ v, w' ++ w, ?_, ?_, by simp only [List.length_append, i5, j5]⟩
    · intro x hx
      rcases List.mem_cons.mp hx with rfl | hx
      · exact j1
      · exact i1 x hx
    · intro x hx
      rcases List.mem_cons.mp hx with rfl | hx
      · exact j2
      · exact i2 x hx
    · simp only [RecordDataSet.encode, j3, i3, ok_bind, pure_eq_ok]
    · simp only [RecordDataSet.encode, j4, i4, ok_bind, pure_eq_ok]

theorem sdr_flags {env : Env} {a : ServiceDataRecord} (h : a.WF env) :
    ∃ fl, parseFlags (a.ssod ++ a.rsod ++ a.grp ++ a.rpp ++ a.tmfe ++ a.evfe ++ a.obfe) = .ok fl := by
  obtain ⟨h1, h2, h3, h4, h5, h6, h7, _⟩ := h
  obtain ⟨b7, e1⟩ := isBit_iff.mp h1
  obtain ⟨b6, e2⟩ := isBit_iff.mp h2
  obtain ⟨b5, e3⟩ := isBit_iff.mp h3
  obtain ⟨b4, b3, e4⟩ := isBits2_iff.mp h4
  obtain ⟨b2, e5⟩ := isBit_iff.mp h5
  obtain ⟨b1, e6⟩ := isBit_iff.mp h6
  obtain ⟨b0, e7⟩ := isBit_iff.mp h7
  refine ⟨mk8 b7 b6 b5 b4 b3 b2 b1 b0, ?_⟩
  rw [e1, e2, e3, e4, e5, e6, e7]
  simp only [List.append_assoc]
  exact parseFlags_bits b7 b6 b5 b4 b3 b2 b1 b0

theorem opt32_length (f : Bytes) (x y : UInt32) : (optBytes f (put32 x)).length = (optBytes f (put32 y)).length := by
  unfold optBytes; split <;> rfl

theorem sdr_again {env : Env} {n : Nat} {a b : ServiceDataRecord} (hw : a.WF env) (hs : a.Sound) (h : a.Rel env (SubData.Moved env n) b) :
    b.WF env ∧ b.Sound ∧ ∃ v w, a.encode env = .ok v ∧ b.encode env = .ok w ∧ w.length = v.length := by
  obtain ⟨fl, hfl⟩ := sdr_flags hw
  obtain ⟨k1, k2, k3, k4, k5, k6, k7, k8, hrd, enc, henc, hlen, _⟩ := hw
  obtain ⟨h1, ⟨enc', h2, h3⟩, h4⟩ := h
  rw [henc] at h2; cases h2
  obtain ⟨i1, i2, v, w, i3, i4, i5⟩ := rds_again hrd hs h1
  rw [henc] at i3; cases i3
  refine ⟨?_, i2, ?_⟩
  · refine ⟨by rw [h4]; exact k1, by rw [h4]; exact k2, by rw [h4]; exact k3, by rw [h4]; exact k4, by rw [h4]; exact k5, by rw [h4]; exact k6,
      by rw [h4]; exact k7, ?_, i1, w, i4, by omega, .inr (by omega)⟩
    rw [h4]
    intro ht
    show WireTime (present a.tmfe a.time zeroTime)
    have ht : a.tmfe = go!"1" := ht
    rw [present, if_pos ht]
    exact k8 ht
  · have hfl' : parseFlags (b.ssod ++ b.rsod ++ b.grp ++ b.rpp ++ b.tmfe ++ b.evfe ++ b.obfe) = .ok fl := by rw [h4]; exact hfl
    have f1 : b.obfe = a.obfe := by rw [h4]
    have f2 : b.evfe = a.evfe := by rw [h4]
    have f3 : b.tmfe = a.tmfe := by rw [h4]
    unfold ServiceDataRecord.encode
    rw [henc, i4, hfl, hfl']
    refine ⟨_, _, rfl, rfl, ?_⟩
    simp only [List.length_append, f1, f2, f3, opt32_length a.obfe b.objectIdentifier a.objectIdentifier,
      opt32_length a.evfe b.eventIdentifier a.eventIdentifier, opt32_length a.tmfe (encRecTime b.time) (encRecTime a.time), i5, put16, List.length_cons, List.length_nil]

theorem sds_again {env : Env} {n : Nat} {a b : List ServiceDataRecord} (hw : ∀ x ∈ a, x.WF env) (hs : ∀ x ∈ a, x.Sound)
    (h : List.Forall₂ (ServiceDataRecord.Rel env (SubData.Moved env n)) a b) :
    (∀ x ∈ b, x.WF env) ∧ (∀ x ∈ b, x.Sound) ∧ ∃ v w, ServiceDataSet.encode env a = .ok v ∧ ServiceDataSet.encode env b = .ok w ∧ w.length = v.length := by
  induction h with
  | nil => exact ⟨by simp, by simp, [], [], rfl, rfl, rfl⟩
  | cons h1 _ ih =>
    obtain ⟨i1, i2, v, w, i3, i4, i5⟩ := ih (fun x hx => hw x (by simp [hx])) (fun x hx => hs x (by simp [hx]))
    obtain ⟨j1, j2, v', w', j3, j4, j5⟩ := sdr_again (hw _ (by simp)) (hs _ (by simp)) h1
    refine ⟨?_, ?_, v' ++ v, w' ++ w, ?_, ?_, by simp only [List.length_append, i5, j5]⟩
    · intro x hx
      rcases List.mem_cons.mp hx with rfl | hx
      · exact j1
      · exact i1 x hx
    · intro x hx
      rcases List.mem_cons.mp hx with rfl | hx
      · exact j2
      · exact i2 x hx
    · simp only [ServiceDataSet.encode, j3, i3, ok_bind, pure_eq_ok]
    · simp only [ServiceDataSet.encode, j4, i4, ok_bind, pure_eq_ok]

theorem resp_encode (env : Env) (r : PtResponse) {x : Bytes} (h : ServiceDataSet.encode env (r.sdr.getD []) = .ok x) :
    PtResponse.encode env r = .ok (put16 r.responsePacketID ++ [r.processingResult] ++ x) := by
  unfold PtResponse.encode
  cases hr : r.sdr with
  | none => rw [hr] at h; cases h; rfl
  | some s => rw [hr] at h; simp only [Option.getD_some] at h; simp only [h, ok_bind, pure_eq_ok]

theorem frameData_again {env : Env} {n : Nat} {a b : FrameData} (hw : a.WF env) (hs : ∀ r ∈ a.records, r.Sound) (h : a.Rel env (SubData.Moved env n) b) :
    b.WF env ∧ (∀ r ∈ b.records, r.Sound) ∧ b.code = a.code ∧ ∃ v w, a.encode env = .ok v ∧ b.encode env = .ok w ∧ w.length = v.length := by
  cases a with
  | sds a =>
    cases b with
    | resp b => exact h.elim
    | sds b =>
      obtain ⟨i1, i2, i3⟩ := sds_again hw.2 hs h
      refine ⟨⟨?_, i1⟩, i2, rfl, i3⟩
      rintro rfl
      exact hw.1 (List.forall₂_nil_right_iff.mp h)
  | resp a =>
    cases b with
    | sds b => exact h.elim
    | resp b =>
      obtain ⟨e1, e2, e3, e4⟩ := h
      have hw' : ∀ x ∈ a.sdr.getD [], x.WF env := by
        intro x hx
        cases he : a.sdr with
        | none => rw [he] at hx; cases hx
        | some s => rw [he] at hx; exact hw s he x hx
      obtain ⟨i1, i2, v, w, i3, i4, i5⟩ := sds_again hw' hs e3
      refine ⟨?_, i2, rfl, _, _, resp_encode env a i3, resp_encode env b i4, ?_⟩
      · intro s hb x hx
        exact i1 x (by rw [hb]; exact hx)
      · simp only [List.length_append, i5, put16, List.length_cons, List.length_nil]

theorem rd_step {env : Env} {n : Nat} {a b c : RecordData} (hw : a.WF env) (hs : a.Sound) (h : a.Rel env (SubData.Moved env n) b)
    (h' : b.Same env c) : a.Rel env (SubData.Moved env (n + 1)) c := by
  obtain ⟨d, enc, hd, hwd, ht, he, _⟩ := hw
  obtain ⟨x, y, enc1, h1, h2, h3, h4, h5, h6⟩ := h
  obtain ⟨y', z, enc2, g1, g2, g3, g4, g5, g6⟩ := h'
  rw [hd] at h1; cases h1
  rw [he] at h5; cases h5
  rw [h2] at g1; cases g1
  obtain ⟨_, _, m⟩ := moved_again hwd (hs d hd) h3
  obtain ⟨b', m1, m2⟩ := m enc he
  rw [m1] at g5; cases g5
  refine ⟨d, z, enc, hd, g2, moved_succ h3 g3, ?_, he, by omega⟩
  rw [g4, h4]
  exact (moved_type h3 ht).2

theorem forall₂_step {α : Type} {R S T : α → α → Prop} : ∀ {a b c : List α}, (∀ x ∈ a, ∀ y z, R x y → S y z → T x z) →
    List.Forall₂ R a b → List.Forall₂ S b c → List.Forall₂ T a c
  | _, _, _, _, .nil, .nil => .nil
  | _, _, _, h, .cons r1 r2, .cons s1 s2 => .cons (h _ (by simp) _ _ r1 s1) (forall₂_step (fun x hx => h x (by simp [hx])) r2 s2)

theorem forall₂_back {α : Type} {R : α → α → Prop} {a b : List α} (h : List.Forall₂ R a b) : ∀ y ∈ b, ∃ x ∈ a, R x y := by
  induction h with
  | nil => simp
  | cons h1 _ ih =>
    intro y hy
    rcases List.mem_cons.mp hy with rfl | hy
    · exact ⟨_, by simp, h1⟩
    · obtain ⟨x, hx, h⟩ := ih y hy
      exact ⟨x, by simp [hx], h⟩

theorem sdr_step {env : Env} {n : Nat} {a b c : ServiceDataRecord} (hw : a.WF env) (hs : a.Sound) (h : a.Rel env (SubData.Moved env n) b)
    (h' : b.Same env c) : a.Rel env (SubData.Moved env (n + 1)) c := by
  obtain ⟨_, _, _, _, _, _, _, _, hrd, _⟩ := hw
  obtain ⟨h1, ⟨enc, h2, h3⟩, h4⟩ := h
  obtain ⟨g1, ⟨enc', g2, g3⟩, g4⟩ := h'
  obtain ⟨_, _, v, w, i3, i4, i5⟩ := rds_again hrd hs h1
  rw [h2] at i3; cases i3
  rw [g2] at i4; cases i4
  refine ⟨forall₂_step (R := RecordData.Rel env (SubData.Moved env n)) (S := RecordData.Same env) (fun x hx y z hy hz => rd_step (hrd x hx) (hs x hx) hy hz) h1 g1, ⟨enc, h2, by omega⟩, ?_⟩
  generalize c.recordLength = l at *
  generalize c.recordDataSet = s at *
  generalize b.recordLength = l' at *
  generalize b.recordDataSet = s' at *
  rw [g4, h4]
  simp only [present_present]

theorem frameData_step {env : Env} {n : Nat} {a b c : FrameData} (hw : a.WF env) (hs : ∀ r ∈ a.records, r.Sound) (h : a.Rel env (SubData.Moved env n) b)
    (h' : b.Rel env (SubData.Same env) c) : a.Rel env (SubData.Moved env (n + 1)) c := by
  cases a with
  | sds a =>
    cases b with
    | resp b => exact h.elim
    | sds b =>
      cases c with
      | resp c => exact h'.elim
      | sds c => exact forall₂_step (R := ServiceDataRecord.Rel env (SubData.Moved env n)) (S := ServiceDataRecord.Same env) (fun x hx y z hy hz => sdr_step (hw.2 x hx) (hs x hx) hy hz) h h'
  | resp a =>
    cases b with
    | sds b => exact h.elim
    | resp b =>
      cases c with
      | sds c => exact h'.elim
      | resp c =>
        obtain ⟨e1, e2, e3, e4⟩ := h
        obtain ⟨g1, g2, g3, g4⟩ := h'
        have hw' : ∀ x ∈ a.sdr.getD [], x.WF env := by
          intro x hx
          cases he : a.sdr with
          | none => rw [he] at hx; cases hx
          | some s => rw [he] at hx; exact hw s he x hx
        refine ⟨g1.trans e1, g2.trans e2, forall₂_step (R := ServiceDataRecord.Rel env (SubData.Moved env n)) (S := ServiceDataRecord.Same env) (fun x hx y z hy hz => sdr_step (hw' x hx) (hs x hx) hy hz) e3 g3, ?_⟩
        rw [g4]
        constructor
        · intro hb
          rw [hb] at e3
          exact List.forall₂_nil_right_iff.mp e3
        · intro ha
          rw [ha] at e3
          exact List.forall₂_nil_left_iff.mp e3

theorem records_data {p : Package} {d : FrameData} (h : p.servicesFrameData = some d) : p.records = d.records := by
  unfold Package.records
  rw [h]
  cases d <;> rfl

theorem package_again {env : Env} {n : Nat} {p q : Package} (hc : p.Carried env) (h : p.Moved env n q) : q.Carried env := by
  obtain ⟨⟨hh, d0, body0, g1, g2, g3, g4, g5, g6⟩, hs, hp, hfit⟩ := hc
  obtain ⟨d, d', body, h1, h2, h3, h4, h5⟩ := h
  rw [g1] at h1; cases h1
  obtain ⟨i1, i2, i3, v, w, i4, i5, i6⟩ := frameData_again g3 (fun r hr => hs r (by rw [records_data g1]; exact hr)) h3
  have hbody : ∀ b, p.Body env none b ↔ b = v := by
    intro b
    unfold Package.Body
    rw [g1]
    constructor
    · rintro ⟨x, e1, ⟨_, rfl⟩ | ⟨e2, _⟩⟩
      · rw [i4] at e1; cases e1; rfl
      · exact absurd hp e2
    · rintro rfl
      exact ⟨_, i4, .inl ⟨hp, rfl⟩⟩
  have hbody' : ∀ b, q.Body env none b ↔ b = w := by
    intro b
    unfold Package.Body
    rw [h2]
    have hq : q.encryptionAlg = go!"00" := by rw [h5]; exact hp
    constructor
    · rintro ⟨x, e1, ⟨_, rfl⟩ | ⟨e2, _⟩⟩
      · rw [i5] at e1; cases e1; rfl
      · exact absurd hq e2
    · rintro rfl
      exact ⟨_, i5, .inl ⟨hq, rfl⟩⟩
  cases (hbody body0).mp g4
  have hl : q.fullHL = p.fullHL := by rw [h5]; rfl
  obtain ⟨k1, k2, k3, k4, k5, _⟩ := hh
  refine ⟨⟨⟨by rw [h5]; exact k1, by rw [h5]; exact k2, by rw [h5]; exact k3, by rw [h5]; exact k4, by rw [h5]; exact k5, .inr ?_⟩, d', w, h2, ?_, i1,
    (hbody' w).mpr rfl, by omega, by omega⟩, ?_, by rw [h5]; exact hp, ?_⟩
  · rw [hl]
    rw [h5]
    show (UInt8.ofNat p.fullHL).toNat = p.fullHL
    unfold Package.fullHL
    split <;> rfl
  · rw [i3, ← g2, h5]
  · intro r hr
    rw [records_data h2] at hr
    exact i2 r hr
  · intro b hb
    cases (hbody' b).mp hb
    have := hfit _ g4
    rw [hl]
    omega

theorem package_first {env : Env} {p q : Package} (h : Package.Same env none {} p q) : p.Moved env 0 q := by
  obtain ⟨d, d', body, h1, h2, h3, h4, h5⟩ := h
  have hrd : ∀ a b : RecordData, a.Same env b → a.Rel env (SubData.Moved env 0) b := by
    rintro a b ⟨x, y, enc, g1, g2, g3, g4⟩
    exact ⟨x, y, enc, g1, g2, moved_zero g3, g4⟩
  have hsd : ∀ a b : ServiceDataRecord, a.Same env b → a.Rel env (SubData.Moved env 0) b := by
    rintro a b ⟨g1, g2⟩
    exact ⟨g1.imp hrd, g2⟩
  refine ⟨d, d', body, h1, h2, ?_, h4, ?_⟩
  · match d, d', h3 with
    | .sds a, .sds b, h3 => exact List.Forall₂.imp hsd h3
    | .resp a, .resp b, h3 => exact ⟨h3.1, h3.2.1, h3.2.2.1.imp hsd, h3.2.2.2⟩
  · have e : crc16 body = q.servicesFrameDataCheckSum := by rw [h5]
    rw [e] at h5
    exact h5

theorem package_step {env : Env} {n : Nat} {p q r : Package} (hc : p.Carried env) (h : p.Moved env n q) (h' : Package.Same env none {} q r) :
    p.Moved env (n + 1) r := by
  obtain ⟨⟨hh, d0, body0, g1, g2, g3, g4, g5, g6⟩, hs, hp, hfit⟩ := hc
  obtain ⟨d, d', body, h1, h2, h3, h4, h5⟩ := h
  obtain ⟨e, e', bodyq, k1, k2, k3, k4, k5⟩ := h'
  rw [g1] at h1; cases h1
  rw [h2] at k1; cases k1
  have hs' : ∀ r ∈ d0.records, r.Sound := fun r hr => hs r (by rw [records_data g1]; exact hr)
  obtain ⟨_, _, _, v, w, i4, i5, i6⟩ := frameData_again g3 hs' h3
  have hb : body = v := by
    unfold Package.Body at h4
    rw [g1] at h4
    obtain ⟨x, e1, ⟨_, rfl⟩ | ⟨e2, _⟩⟩ := h4
    · rw [i4] at e1; cases e1; rfl
    · exact absurd hp e2
  have hbq : bodyq = w := by
    unfold Package.Body at k4
    rw [h2] at k4
    obtain ⟨x, e1, ⟨_, rfl⟩ | ⟨e2, _⟩⟩ := k4
    · rw [i5] at e1; cases e1; rfl
    · exact absurd (by rw [h5]; exact hp) e2
  refine ⟨d0, e', body, g1, k2, frameData_step g3 hs' h3 k3, h4, ?_⟩
  have hl : q.fullHL = p.fullHL := by rw [h5]; rfl
  have hr : crc16 bodyq = r.servicesFrameDataCheckSum := by rw [k5]
  rw [hr, hl, hbq, i6, ← hb] at k5
  generalize r.headerCheckSum = c1 at *
  generalize r.servicesFrameData = c2 at *
  generalize r.servicesFrameDataCheckSum = c3 at *
  generalize q.headerCheckSum = c4 at *
  generalize q.servicesFrameData = c5 at *
  generalize q.servicesFrameDataCheckSum = c6 at *
  rw [k5, h5]
  simp only [present_present]

/-- One relay. -/
theorem package_hop {env : Env} {p : Package} (hc : p.Carried env) :
    ∃ out q, (p.encode env none).2 = .ok out ∧ Package.decode env none {} ⟨out, []⟩ = .ret q 0 none ∧ Package.ReadBack env none {} p q ∧
      Package.Same env none {} p q := by
  obtain ⟨hw, hs, _, hfit⟩ := hc
  obtain ⟨out, q, e1, e2, e3, _⟩ := package_rt env none {} [] hw hfit (fun _ k hk => by cases hk)
  exact ⟨out, q, e1, e2, e3, package_sound hw hs e3⟩

theorem passed_unique {env : Env} {key : Option SecretKey} {n : Nat} {p q q' : Package} (h : Passed env key n p q) (h' : Passed env key n p q') : q = q' := by
  induction n generalizing q q' with
  | zero => cases h; cases h'; rfl
  | succ n ih =>
    cases h with
    | next a b c =>
      cases h' with
      | next a' b' c' =>
        cases ih a a'
        rw [b] at b'; cases b'
        rw [c] at c'; cases c'
        rfl

theorem passed_moved {env : Env} {p : Package} (hc : p.Carried env) (n : Nat) : ∃ q, Passed env none (n + 1) p q ∧ p.Moved env n q := by
  induction n with
  | zero =>
    obtain ⟨out, q, e1, e2, _, e3⟩ := package_hop hc
    exact ⟨q, .next (.start p) e1 e2, package_first e3⟩
  | succ n ih =>
    obtain ⟨q, h1, h2⟩ := ih
    obtain ⟨out, r, e1, e2, _, e3⟩ := package_hop (package_again hc h2)
    exact ⟨r, .next h1 e1 e2, package_step hc h2 e3⟩

/-! ## The numbers -/

/-- A number that is passed on as itself or as the one below it. -/
theorem onward_bounds (f : UInt32 → UInt32) (hf : ∀ v, f v = v ∨ (v ≠ 0 ∧ f v = v - 1)) (n : Nat) (v : UInt32) :
    f^[n] v ≤ v ∧ v.toNat ≤ (f^[n] v).toNat + n ∧ f^[n + 1] v ≤ f^[n] v := by
  have one : ∀ v, f v ≤ v ∧ v.toNat ≤ (f v).toNat + 1 := by
    intro v
    rcases hf v with h | ⟨h0, h⟩
    · rw [h]; exact ⟨UInt32.le_refl v, by omega⟩
    · have : 0 < v.toNat := by
        rcases Nat.eq_zero_or_pos v.toNat with h | h
        · exact absurd (UInt32.toNat_inj.mp h) h0
        · exact h
      have hs : (v - 1).toNat = v.toNat - 1 := by
        rw [UInt32.toNat_sub_of_le]
        · rfl
        · rw [UInt32.le_iff_toNat_le]; exact this
      rw [h, UInt32.le_iff_toNat_le, hs]
      omega
  induction n with
  | zero => exact ⟨UInt32.le_refl v, by simp, (one v).1⟩
  | succ n ih =>
    obtain ⟨h1, h2, h3⟩ := ih
    refine ⟨UInt32.le_trans h3 h1, ?_, ?_⟩
    · rw [onward_succ]
      have := (one (f^[n] v)).2
      omega
    · rw [onward_succ f (n + 1)]
      exact (one _).1

/-- It stops where it has not moved. -/
theorem onward_stops (f : UInt32 → UInt32) (n k : Nat) (v : UInt32) (h : f^[n + 1] v = f^[n] v) : f^[n + k] v = f^[n] v := by
  induction k with
  | zero => rfl
  | succ k ih => rw [← Nat.add_assoc, onward_succ f, ih, ← onward_succ f, h]

/-- As long as it moves, it moves by one each time. -/
theorem onward_moves (f : UInt32 → UInt32) (hf : ∀ v, f v = v ∨ (v ≠ 0 ∧ f v = v - 1)) (n : Nat) (v : UInt32) (h : f^[n + 1] v ≠ f^[n] v) :
    (f^[n + 1] v).toNat + n + 1 = v.toNat := by
  have dec : ∀ v, f v ≠ v → (f v).toNat + 1 = v.toNat := by
    intro v hv
    rcases hf v with h | ⟨h0, h⟩
    · exact absurd h hv
    · have : 0 < v.toNat := by
        rcases Nat.eq_zero_or_pos v.toNat with h | h
        · exact absurd (UInt32.toNat_inj.mp h) h0
        · exact h
      rw [h, UInt32.toNat_sub_of_le]
      · show v.toNat - 1 + 1 = _
        omega
      · rw [UInt32.le_iff_toNat_le]; exact this
  induction n with
  | zero => exact dec v h
  | succ n ih =>
    have hn : f^[n + 1] v ≠ f^[n] v := by
      intro e
      refine h ?_
      rw [onward_stops f n 2 v e, ← e]
    have := ih hn
    rw [onward_succ f (n + 1)] at h ⊢
    have := dec _ h
    omega

/-- After as many steps as there are numbers, it has stopped. -/
theorem onward_settles (f : UInt32 → UInt32) (hf : ∀ v, f v = v ∨ (v ≠ 0 ∧ f v = v - 1)) (n : Nat) (v : UInt32) (h : v.toNat ≤ n) :
    f^[n + 1] v = f^[n] v := by
  by_contra hne
  have := onward_moves f hf n v hne
  omega

end Egts.Pass
