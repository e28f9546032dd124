import Verif.Spec.Told
import Verif.Spec.Conn
import Verif.Proofs.Told
import Verif.Proofs.Conn

/-!
# C111: what is sent can be told apart

The faults of C28 (analog sensors) and C29 (the second counter) are in the decoder only: the bytes that are sent determine all that was
to be sent. Only the eighth bit of a direction whose ninth bit is set is lost in sending (C32).
-/

namespace Egts

/-- Full statement of C111 (not provable): two well-formed values sent as the same bytes agree in all that is sent. Two positions, one with
direction 72 and one with direction 200, and the ninth bit set in both, are sent as the same bytes. -/
theorem C111_false (env : Env) : ∃ a b : SrPosData, (SubData.pos a).WF env ∧ (SubData.pos b).WF env ∧
    b = { a with direction := 200 } ∧ a.direction = 72 ∧ a.encode env = b.encode env ∧
    ¬ ∃ c, (SubData.pos a).Same env c ∧ (SubData.pos b).Same env c := by
  refine ⟨{ posExample with direction := 72, directionHighestBit := 1 }, { posExample with direction := 200, directionHighestBit := 1 },
    ⟨posExample_wf, by norm_num [posExample], by norm_num [posExample]⟩, ⟨posExample_wf, by norm_num [posExample], by norm_num [posExample]⟩,
    rfl, rfl, ?_, ?_⟩
  · have h : posDirByte 72 1 = posDirByte 200 1 := by decide
    simp only [SrPosData.encode, posExample, h]
  · rintro ⟨c, h1, h2⟩
    cases c with
    | pos c =>
      have e1 : c.direction = 72 := congrArg SrPosData.direction h1.2.2.2.2
      have e2 : c.direction = 200 := congrArg SrPosData.direction h2.2.2.2.2
      exact absurd (e1.symm.trans e2) (by decide)
    | _ => exact h1

/-- Two lists of well-formed subrecords that are sent as the same bytes tell the same. -/
theorem C111_subrecords (env : Env) (a a' : List RecordData) (ha : ∀ rd ∈ a, rd.WF env) (ha' : ∀ rd ∈ a', rd.WF env)
    (h : RecordDataSet.encode env a = RecordDataSet.encode env a') :
    ∃ c, List.Forall₂ (RecordData.Rel env (SubData.Told env)) a c ∧ List.Forall₂ (RecordData.Rel env (SubData.Told env)) a' c := by
  obtain ⟨b, out, e, s, d⟩ := C17_record_sets_exact env a ha
  obtain ⟨b', out', e', s', d'⟩ := C17_record_sets_exact env a' ha'
  rw [e, e'] at h
  cases h
  have := (d []).symm.trans (d' [])
  cases this
  exact rds_told env a a' out ha ha' b e e' s s'

/-- Two lists of well-formed service data records that are sent as the same bytes tell the same. -/
theorem C111_records (env : Env) (a a' : List ServiceDataRecord) (ha : ∀ r ∈ a, r.WF env) (ha' : ∀ r ∈ a', r.WF env)
    (h : ServiceDataSet.encode env a = ServiceDataSet.encode env a') :
    ∃ c, List.Forall₂ (ServiceDataRecord.Rel env (SubData.Told env)) a c ∧
      List.Forall₂ (ServiceDataRecord.Rel env (SubData.Told env)) a' c := by
  obtain ⟨b, out, e, s, d⟩ := C16_service_sets_exact env a ha
  obtain ⟨b', out', e', s', d'⟩ := C16_service_sets_exact env a' ha'
  rw [e, e'] at h
  cases h
  have := (d []).symm.trans (d' [])
  cases this
  exact sds_told env a a' out ha ha' b e e' s s'

theorem resp_form {env : Env} {r : PtResponse} {b : Bytes} (h : r.encode env = .ok b) :
    ∃ s, ServiceDataSet.encode env (r.sdr.getD []) = .ok s ∧ b = put16 r.responsePacketID ++ [r.processingResult] ++ s := by
  unfold PtResponse.encode at h
  obtain ⟨s, hs, h⟩ := bind_eq_ok.mp h
  simp only [pure_eq_ok, Except.ok.injEq] at h
  refine ⟨s, ?_, h.symm⟩
  cases hr : r.sdr with
  | none => rw [hr] at hs; exact hs
  | some x => rw [hr] at hs; exact hs

theorem frame_told {env : Env} {d d' o : FrameData} {x : Bytes} (hd : d.WF env) (hd' : d'.WF env) (e : d.encode env = .ok x)
    (e' : d'.encode env = .ok x) (h : d.Rel env (SubData.ReadBack env) o) (h' : d'.Rel env (SubData.ReadBack env) o) :
    ∃ c, d.Rel env (SubData.Told env) c ∧ d'.Rel env (SubData.Told env) c := by
  have wf : ∀ {r : PtResponse}, r.WF env → ∀ y ∈ r.sdr.getD [], y.WF env := by
    intro r h y hy
    cases hr : r.sdr with
    | none => rw [hr] at hy; cases hy
    | some s => rw [hr] at hy; exact h s hr y hy
  cases d with
  | sds a =>
    cases o with
    | resp o => cases h
    | sds o =>
      cases d' with
      | resp b => cases h'
      | sds b =>
        obtain ⟨c, c1, c2⟩ := sds_told env a b o hd.2 hd'.2 x e e' h h'
        exact ⟨.sds c, c1, c2⟩
  | resp a =>
    cases o with
    | sds o => cases h
    | resp o =>
      cases d' with
      | sds b => cases h'
      | resp b =>
        obtain ⟨s, f1, f2⟩ := resp_form e
        obtain ⟨s', f1', f2'⟩ := resp_form e'
        obtain ⟨h1, h2, h3, h4⟩ := h
        obtain ⟨h1', h2', h3', h4'⟩ := h'
        obtain ⟨_, rfl⟩ := List.append_inj (f2.symm.trans f2') rfl
        obtain ⟨c, c1, c2⟩ := sds_told env _ _ _ (wf hd) (wf hd') s f1 f1' h3 h3'
        refine ⟨.resp { o with sdr := if c = [] then none else some c }, ⟨h1, h2, ?_, ?_⟩, ⟨h1', h2', ?_, ?_⟩⟩
        · by_cases hc : c = []
          · subst hc; exact c1
          · simp only [if_neg hc]; exact c1
        · by_cases hc : c = []
          · subst hc; exact ⟨fun _ => List.forall₂_nil_right_iff.mp c1, fun _ => rfl⟩
          · simp only [if_neg hc]
            refine ⟨fun h => (by cases h), fun h => ?_⟩
            rw [h] at c1; cases c1; exact absurd rfl hc
        · by_cases hc : c = []
          · subst hc; exact c2
          · simp only [if_neg hc]; exact c2
        · by_cases hc : c = []
          · subst hc; exact ⟨fun _ => List.forall₂_nil_right_iff.mp c2, fun _ => rfl⟩
          · simp only [if_neg hc]
            refine ⟨fun h => (by cases h), fun h => ?_⟩
            rw [h] at c2; cases c2; exact absurd rfl hc

theorem head_told {p q : Package} {f g : UInt8} {t u : Bytes} (h : p.headBytes f ++ t = q.headBytes g ++ u) :
    f = g ∧ p.protocolVersion = q.protocolVersion ∧ p.securityKeyID = q.securityKeyID ∧ p.headerEncoding = q.headerEncoding ∧
      p.packetIdentifier = q.packetIdentifier ∧ p.packetType = q.packetType := by
  have a := head_facts p f t
  have b := head_facts q g u
  rw [h] at a
  obtain ⟨a0, a1, a2, _, a4, _, a6, a7, _⟩ := a
  obtain ⟨b0, b1, b2, _, b4, _, b6, b7, _⟩ := b
  exact ⟨UInt8.toNat_inj.mp (a2.symm.trans b2), UInt8.toNat_inj.mp (a0.symm.trans b0), UInt8.toNat_inj.mp (a1.symm.trans b1),
    UInt8.toNat_inj.mp (a4.symm.trans b4), UInt16.toNat_inj.mp (a6.symm.trans b6), UInt8.toNat_inj.mp (a7.symm.trans b7)⟩

theorem route_told {p q : Package} {f g : UInt8} {t u : Bytes} (h : p.headBytes f ++ t = q.headBytes g ++ u) (hp : p.route = one)
    (hq : q.route = one) : p.peerAddress = q.peerAddress ∧ p.recipientAddress = q.recipientAddress ∧ p.timeToLive = q.timeToLive := by
  have a := head_facts p f t
  have b := head_facts q g u
  rw [h] at a
  obtain ⟨a1, a2, a3⟩ := a.2.2.2.2.2.2.2.2 hp
  obtain ⟨b1, b2, b3⟩ := b.2.2.2.2.2.2.2.2 hq
  exact ⟨UInt16.toNat_inj.mp (a1.symm.trans b1), UInt16.toNat_inj.mp (a2.symm.trans b2), UInt8.toNat_inj.mp (a3.symm.trans b3)⟩

/-- Two well-formed packages that are sent as the same bytes tell the same: there is one package that is what is told of either. With
encryption the key must be able to undo itself. Packets so long that HL+FDL does not fit 16 bits, which the library itself cannot read
(C06_false), are included. -/
theorem C111_package (env : Env) (key : Option SecretKey) (p p' p0 : Package) (h : p.WF env key) (h' : p'.WF env key)
    (hk : ∀ k, key = some k → ∀ x y, k.encode x = .ok y → k.decode y = .ok x)
    (he : (p.encode env key).2 = (p'.encode env key).2) :
    ∃ c, Package.Rel env key (SubData.Told env) p0 p c ∧ Package.Rel env key (SubData.Told env) p0 p' c := by
  obtain ⟨hw, d, body, w1, w2, w3, w4, w5, w6⟩ := h
  obtain ⟨hw', d', body', w1', w2', w3', w4', w5', w6'⟩ := h'
  obtain ⟨fl, head, s1, s2, s3, s4⟩ := encode_shape env key hw w4 w6
  obtain ⟨fl', head', s1', s2', s3', s4'⟩ := encode_shape env key hw' w4' w6'
  rw [s4, s4'] at he
  simp only [Except.ok.injEq] at he
  rw [if_neg (List.length_pos_iff.mp w5), if_neg (List.length_pos_iff.mp w5'), List.append_assoc, List.append_assoc] at he
  have he2 := he
  rw [s2, s2'] at he2
  obtain ⟨t1, t2, t3, t4, t5, t6⟩ := head_told he2
  subst t1
  obtain ⟨b7, b6, b5, b4, b3, b2, b1, b0, e1, e2, e3, e4, e5, hf⟩ := headWF_flags hw
  obtain ⟨c7, c6, c5, c4, c3, c2, c1, c0, g1, g2, g3, g4, g5, hg⟩ := headWF_flags hw'
  have hm := (hf.symm.trans s1).trans (s1'.symm.trans hg)
  simp only [Except.ok.injEq] at hm
  obtain ⟨rfl, rfl, rfl, rfl, rfl, rfl, rfl, rfl⟩ := mk8_inj hm
  have hr : p.route = p'.route := e2.trans g2.symm
  have hen : p.encryptionAlg = p'.encryptionAlg := e3.trans g3.symm
  have hfull : p.fullHL = p'.fullHL := by unfold Package.fullHL; rw [hr]
  obtain ⟨hh, hb⟩ := List.append_inj he (by omega)
  have hb : body = body' := by
    rw [hh] at hb
    have := (List.append_inj hb rfl).2
    have hl := congrArg List.length this
    simp only [List.length_append, put16, List.length_cons, List.length_nil] at hl
    exact (List.append_inj this (by omega)).1
  subst hb
  have hx : ∃ x, d.encode env = .ok x ∧ d'.encode env = .ok x := by
    have v := w4
    have v' := w4'
    unfold Package.Body at v v'
    rw [w1] at v
    rw [w1'] at v'
    obtain ⟨x, vx, v⟩ := v
    obtain ⟨x', vx', v'⟩ := v'
    rcases v with ⟨n, rfl⟩ | ⟨n, k, hkey, v⟩ <;> rcases v' with ⟨n', rfl⟩ | ⟨n', k', hkey', v'⟩
    · exact ⟨_, vx, vx'⟩
    · exact absurd (hen.symm.trans n) n'
    · exact absurd (hen.trans n') n
    · rw [hkey] at hkey'; cases hkey'
      have := (hk k hkey _ _ v).symm.trans (hk k hkey _ _ v')
      cases this
      exact ⟨_, vx, vx'⟩
  obtain ⟨x, hx1, hx2⟩ := hx
  have hcode : d.code = d'.code := w2.symm.trans (t6.trans w2')
  have ho : ∃ o, d.Rel env (SubData.ReadBack env) o ∧ d'.Rel env (SubData.ReadBack env) o := by
    obtain ⟨y, o, r1, _, r2, r3⟩ := frameData_rt env d w3
    obtain ⟨y', o', r1', _, r2', r3'⟩ := frameData_rt env d' w3'
    rw [hx1] at r1; cases r1
    rw [hx2] at r1'; cases r1'
    have : o = o' := by
      cases d with
      | sds a =>
        cases d' with
        | sds b => exact Except.ok.inj (r3.symm.trans r3')
        | resp b => exact absurd hcode (by simp [FrameData.code])
      | resp a =>
        cases d' with
        | resp b => exact Except.ok.inj (r3.symm.trans r3')
        | sds b => exact absurd hcode (by simp [FrameData.code])
    subst this
    exact ⟨o, r2, r2'⟩
  obtain ⟨o, o1, o2⟩ := ho
  obtain ⟨c, k1, k2⟩ := frame_told w3 w3' hx1 hx2 o1 o2
  let q : Package := { p with
    headerLength := UInt8.ofNat p.fullHL
    frameDataLength := UInt16.ofNat body.length
    peerAddress := present p.route p.peerAddress p0.peerAddress
    recipientAddress := present p.route p.recipientAddress p0.recipientAddress
    timeToLive := present p.route p.timeToLive p0.timeToLive
    servicesFrameData := some c
    servicesFrameDataCheckSum := crc16 body }
  have q1 : present p.route p.peerAddress p0.peerAddress = present p'.route p'.peerAddress p0.peerAddress ∧
      present p.route p.recipientAddress p0.recipientAddress = present p'.route p'.recipientAddress p0.recipientAddress ∧
      present p.route p.timeToLive p0.timeToLive = present p'.route p'.timeToLive p0.timeToLive := by
    unfold present
    rw [← hr]
    by_cases hp : p.route = one
    · obtain ⟨z1, z2, z3⟩ := route_told he2 hp (hr ▸ hp)
      simp only [encoded] at z1 z2 z3
      rw [z1, z2, z3]
      exact ⟨rfl, rfl, rfl⟩
    · simp only [if_neg hp]
      exact ⟨trivial, trivial, trivial⟩
  refine ⟨q, ⟨d, c, body, w1, rfl, k1, w4, rfl⟩, ⟨d', c, body, w1', rfl, k2, w4', ?_⟩⟩
  simp only [encoded] at t2 t3 t4 t5 t6
  simp only [q]
  rw [t2, t3, t4, t5, t6, q1.1, q1.2.1, q1.2.2, hfull, e1.trans g1.symm, hr, hen, e4.trans g4.symm, e5.trans g5.symm]

/-- There is a decoder, as a function of the bytes alone, that reads every set of well-formed records as what is told of it: the second
counter and all analog sensors included. -/
theorem C111_decoder (env : Env) : ∃ dec : Bytes → List ServiceDataRecord, ∀ (a : List ServiceDataRecord) (b : Bytes), (∀ r ∈ a, r.WF env) →
    ServiceDataSet.encode env a = .ok b → ∃ c, List.Forall₂ (ServiceDataRecord.Rel env (SubData.Told env)) a c ∧
      List.Forall₂ (ServiceDataRecord.Rel env (SubData.Told env)) (dec b) c := by
  classical
  refine ⟨fun b => if h : ∃ a, (∀ r ∈ a, ServiceDataRecord.WF env r) ∧ ServiceDataSet.encode env a = .ok b then h.choose else [], ?_⟩
  intro a b ha e
  have h : ∃ a, (∀ r ∈ a, ServiceDataRecord.WF env r) ∧ ServiceDataSet.encode env a = .ok b := ⟨a, ha, e⟩
  simp only [dif_pos h]
  exact C111_records env a h.choose ha h.choose_spec.1 (e.trans h.choose_spec.2.symm)

/-- A stream of frames can be taken apart in one way only, whatever follows that is no whole frame. -/
theorem C111_stream (fs gs : List Bytes) (t u : Bytes) (hf : ∀ f ∈ fs, WellFramed f) (hg : ∀ g ∈ gs, WellFramed g)
    (ht : ∀ f r, WellFramed f → t ≠ f ++ r) (hu : ∀ f r, WellFramed f → u ≠ f ++ r) (h : fs.flatten ++ t = gs.flatten ++ u) :
    fs = gs ∧ t = u := by
  induction fs generalizing gs with
  | nil =>
    cases gs with
    | nil => exact ⟨rfl, h⟩
    | cons g gs =>
      refine absurd ?_ (ht g (gs.flatten ++ u) (hg g (List.mem_cons_self ..)))
      simpa using h
  | cons f fs ih =>
    cases gs with
    | nil =>
      refine absurd ?_ (hu f (fs.flatten ++ t) (hf f (List.mem_cons_self ..)))
      simpa using h.symm
    | cons g gs =>
      simp only [List.flatten_cons, List.append_assoc] at h
      have e1 := readPacket_framed (t := fs.flatten ++ t) .eof (hf f (List.mem_cons_self ..))
      have e2 := readPacket_framed (t := gs.flatten ++ u) .eof (hg g (List.mem_cons_self ..))
      rw [h, e2] at e1
      injection e1 with e3 e4
      obtain ⟨i1, i2⟩ := ih gs (fun f h => hf f (List.mem_cons_of_mem _ h)) (fun g h => hg g (List.mem_cons_of_mem _ h)) e4.symm
      exact ⟨by rw [e3, i1], i2⟩

/-- The counters that the decoder confuses (C29) are sent as different bytes. -/
example : SrCountersData.encode counter2 = .ok [2, 22, 0, 0] ∧
    SrCountersData.encode { counter2 with cn2 := 23 } = .ok [2, 23, 0, 0] := ⟨by with_unfolding_all rfl, by with_unfolding_all rfl⟩

/-- Two packages to which `C111_package` applies: one with its header length left open. -/
example (env key) : appPackage.WF env key ∧ ({ appPackage with headerLength := 16 } : Package).WF env key := by
  refine ⟨(appPackage_wf env key).1, ?_⟩
  obtain ⟨_, d, body, h⟩ := (appPackage_wf env key).1
  exact ⟨by decide, d, body, h⟩

end Egts
