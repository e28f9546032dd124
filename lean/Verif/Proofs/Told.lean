import Verif.Spec.Told
import Verif.Props.Packages
import Verif.Proofs.Wire
import Verif.Proofs.KeptMore

/-! # Equal bytes tell equal values (C111) -/

namespace Egts

theorem put24_low {v w : UInt32} (h : put24 v = put24 w) : low24 v = low24 w := by
  simp only [put24, put32, List.take_succ_cons, List.take_zero, List.cons.injEq, and_true] at h
  obtain ⟨h1, h2, h3⟩ := h
  have e : ∀ a b : Nat, a < 256 → b < 256 → UInt8.ofNat a = UInt8.ofNat b → a = b := by
    intro a b ha hb hab
    have := congrArg UInt8.toNat hab
    rwa [UInt8.toNat_ofNat', UInt8.toNat_ofNat', Nat.mod_eq_of_lt ha, Nat.mod_eq_of_lt hb] at this
  have h1 := e _ _ (Nat.mod_lt _ (by decide)) (Nat.mod_lt _ (by decide)) h1
  have h2 := e _ _ (Nat.mod_lt _ (by decide)) (Nat.mod_lt _ (by decide)) h2
  have h3 := e _ _ (Nat.mod_lt _ (by decide)) (Nat.mod_lt _ (by decide)) h3
  unfold low24
  congr 1
  omega

theorem opt24_inj {f : Bool} {v w : UInt32} {x y : Bytes} (h : optBytes (bit f) (put24 v) ++ x = optBytes (bit f) (put24 w) ++ y) :
    (f = true → low24 v = low24 w) ∧ x = y := by
  cases f with
  | false => exact ⟨fun hf => Bool.noConfusion hf, h⟩
  | true =>
    obtain ⟨h1, h2⟩ := List.append_inj h rfl
    exact ⟨fun _ => put24_low h1, h2⟩

theorem opt24_last {f : Bool} {v w : UInt32} (h : optBytes (bit f) (put24 v) = optBytes (bit f) (put24 w)) : f = true → low24 v = low24 w := by
  rintro rfl; exact put24_low h

theorem opt8_inj {f : Bool} {v w : UInt8} {x y : Bytes} (h : optBytes (bit f) [v] ++ x = optBytes (bit f) [w] ++ y) :
    (f = true → v = w) ∧ x = y := by
  cases f with
  | false => exact ⟨fun hf => Bool.noConfusion hf, h⟩
  | true =>
    obtain ⟨h1, h2⟩ := List.append_inj h rfl
    refine ⟨fun _ => ?_, h2⟩
    have h1 : [v] = [w] := h1
    injection h1

theorem mk8_inj {a7 a6 a5 a4 a3 a2 a1 a0 b7 b6 b5 b4 b3 b2 b1 b0 : Bool}
    (h : mk8 a7 a6 a5 a4 a3 a2 a1 a0 = mk8 b7 b6 b5 b4 b3 b2 b1 b0) :
    a7 = b7 ∧ a6 = b6 ∧ a5 = b5 ∧ a4 = b4 ∧ a3 = b3 ∧ a2 = b2 ∧ a1 = b1 ∧ a0 = b0 := by
  have le : ∀ b : Bool, b.toNat ≤ 1 := by decide
  have inj : ∀ a b : Bool, a.toNat = b.toNat → a = b := by decide
  have h := congrArg UInt8.toNat h
  have := le a7; have := le a6; have := le a5; have := le a4; have := le a3; have := le a2; have := le a1; have := le a0
  have := le b7; have := le b6; have := le b5; have := le b4; have := le b3; have := le b2; have := le b1; have := le b0
  unfold mk8 at h
  rw [UInt8.toNat_ofNat', UInt8.toNat_ofNat', Nat.mod_eq_of_lt (by omega), Nat.mod_eq_of_lt (by omega)] at h
  refine ⟨inj _ _ ?_, inj _ _ ?_, inj _ _ ?_, inj _ _ ?_, inj _ _ ?_, inj _ _ ?_, inj _ _ ?_, inj _ _ ?_⟩ <;> omega

theorem ite_same {α : Type} {f : Bool} {v w z : α} (h : f = true → v = w) : (if f = true then v else z) = if f = true then w else z := by
  split
  · rename_i hf; exact h hf
  · rfl

/-- Counters, although the second of them is read as the first. -/
theorem counters_told {a b : SrCountersData} (ha : a.FlagsWF) (hb : b.FlagsWF) (h : a.encode = b.encode) : a.onto {} = b.onto {} := by
  obtain ⟨as1, as2, as3, as4, as5, as6, as7, as8, an1, an2, an3, an4, an5, an6, an7, an8⟩ := a
  obtain ⟨bs1, bs2, bs3, bs4, bs5, bs6, bs7, bs8, bn1, bn2, bn3, bn4, bn5, bn6, bn7, bn8⟩ := b
  obtain ⟨g1, g2, g3, g4, g5, g6, g7, g8⟩ := ha
  obtain ⟨k1, k2, k3, k4, k5, k6, k7, k8⟩ := hb
  obtain ⟨a1, rfl⟩ := isBit_iff.mp g1
  obtain ⟨a2, rfl⟩ := isBit_iff.mp g2
  obtain ⟨a3, rfl⟩ := isBit_iff.mp g3
  obtain ⟨a4, rfl⟩ := isBit_iff.mp g4
  obtain ⟨a5, rfl⟩ := isBit_iff.mp g5
  obtain ⟨a6, rfl⟩ := isBit_iff.mp g6
  obtain ⟨a7, rfl⟩ := isBit_iff.mp g7
  obtain ⟨a8, rfl⟩ := isBit_iff.mp g8
  obtain ⟨b1, rfl⟩ := isBit_iff.mp k1
  obtain ⟨b2, rfl⟩ := isBit_iff.mp k2
  obtain ⟨b3, rfl⟩ := isBit_iff.mp k3
  obtain ⟨b4, rfl⟩ := isBit_iff.mp k4
  obtain ⟨b5, rfl⟩ := isBit_iff.mp k5
  obtain ⟨b6, rfl⟩ := isBit_iff.mp k6
  obtain ⟨b7, rfl⟩ := isBit_iff.mp k7
  obtain ⟨b8, rfl⟩ := isBit_iff.mp k8
  have hp := parseFlags_bits a8 a7 a6 a5 a4 a3 a2 a1
  have hq := parseFlags_bits b8 b7 b6 b5 b4 b3 b2 b1
  simp only [SrCountersData.encode, List.append_assoc, hp, hq, ok_bind, pure_eq_ok, Except.ok.injEq, List.cons_append, List.nil_append,
    List.cons.injEq] at h
  obtain ⟨hm, h⟩ := h
  obtain ⟨rfl, rfl, rfl, rfl, rfl, rfl, rfl, rfl⟩ := mk8_inj hm
  obtain ⟨e1, h⟩ := opt24_inj h
  obtain ⟨e2, h⟩ := opt24_inj h
  obtain ⟨e3, h⟩ := opt24_inj h
  obtain ⟨e4, h⟩ := opt24_inj h
  obtain ⟨e5, h⟩ := opt24_inj h
  obtain ⟨e6, h⟩ := opt24_inj h
  obtain ⟨e7, h⟩ := opt24_inj h
  have e8 := opt24_last h
  simp only [SrCountersData.onto, present_bit, ite_same e1, ite_same e2, ite_same e3, ite_same e4, ite_same e5, ite_same e6, ite_same e7, ite_same e8]

/-- Sensors, although the flags of the analog ones are written in reverse. -/
theorem sensors_told {a b : SrAdSensorsData} (ha : a.FlagsWF) (hb : b.FlagsWF) (h : a.encode = b.encode) : a.onto {} = b.onto {} := by
  obtain ⟨di1, di2, di3, di4, di5, di6, di7, di8, dout, as1, as2, as3, as4, as5, as6, as7, as8,
    ad1, ad2, ad3, ad4, ad5, ad6, ad7, ad8, an1, an2, an3, an4, an5, an6, an7, an8⟩ := a
  obtain ⟨ei1, ei2, ei3, ei4, ei5, ei6, ei7, ei8, eout, bs1, bs2, bs3, bs4, bs5, bs6, bs7, bs8,
    bd1, bd2, bd3, bd4, bd5, bd6, bd7, bd8, bn1, bn2, bn3, bn4, bn5, bn6, bn7, bn8⟩ := b
  obtain ⟨h1, h2, h3, h4, h5, h6, h7, h8, g1, g2, g3, g4, g5, g6, g7, g8⟩ := ha
  obtain ⟨j1, j2, j3, j4, j5, j6, j7, j8, k1, k2, k3, k4, k5, k6, k7, k8⟩ := hb
  obtain ⟨a1, rfl⟩ := isBit_iff.mp g1
  obtain ⟨a2, rfl⟩ := isBit_iff.mp g2
  obtain ⟨a3, rfl⟩ := isBit_iff.mp g3
  obtain ⟨a4, rfl⟩ := isBit_iff.mp g4
  obtain ⟨a5, rfl⟩ := isBit_iff.mp g5
  obtain ⟨a6, rfl⟩ := isBit_iff.mp g6
  obtain ⟨a7, rfl⟩ := isBit_iff.mp g7
  obtain ⟨a8, rfl⟩ := isBit_iff.mp g8
  obtain ⟨b1, rfl⟩ := isBit_iff.mp k1
  obtain ⟨b2, rfl⟩ := isBit_iff.mp k2
  obtain ⟨b3, rfl⟩ := isBit_iff.mp k3
  obtain ⟨b4, rfl⟩ := isBit_iff.mp k4
  obtain ⟨b5, rfl⟩ := isBit_iff.mp k5
  obtain ⟨b6, rfl⟩ := isBit_iff.mp k6
  obtain ⟨b7, rfl⟩ := isBit_iff.mp k7
  obtain ⟨b8, rfl⟩ := isBit_iff.mp k8
  obtain ⟨p1, rfl⟩ := isBit_iff.mp h1
  obtain ⟨p2, rfl⟩ := isBit_iff.mp h2
  obtain ⟨p3, rfl⟩ := isBit_iff.mp h3
  obtain ⟨p4, rfl⟩ := isBit_iff.mp h4
  obtain ⟨p5, rfl⟩ := isBit_iff.mp h5
  obtain ⟨p6, rfl⟩ := isBit_iff.mp h6
  obtain ⟨p7, rfl⟩ := isBit_iff.mp h7
  obtain ⟨p8, rfl⟩ := isBit_iff.mp h8
  obtain ⟨q1, rfl⟩ := isBit_iff.mp j1
  obtain ⟨q2, rfl⟩ := isBit_iff.mp j2
  obtain ⟨q3, rfl⟩ := isBit_iff.mp j3
  obtain ⟨q4, rfl⟩ := isBit_iff.mp j4
  obtain ⟨q5, rfl⟩ := isBit_iff.mp j5
  obtain ⟨q6, rfl⟩ := isBit_iff.mp j6
  obtain ⟨q7, rfl⟩ := isBit_iff.mp j7
  obtain ⟨q8, rfl⟩ := isBit_iff.mp j8
  have hp := parseFlags_bits p8 p7 p6 p5 p4 p3 p2 p1
  have hq := parseFlags_bits q8 q7 q6 q5 q4 q3 q2 q1
  have hp' := parseFlags_bits a1 a2 a3 a4 a5 a6 a7 a8
  have hq' := parseFlags_bits b1 b2 b3 b4 b5 b6 b7 b8
  simp only [SrAdSensorsData.encode, List.append_assoc, hp, hq, hp', hq', ok_bind, pure_eq_ok, Except.ok.injEq, List.cons_append, List.nil_append,
    List.cons.injEq] at h
  obtain ⟨hm, rfl, hm', h⟩ := h
  obtain ⟨rfl, rfl, rfl, rfl, rfl, rfl, rfl, rfl⟩ := mk8_inj hm
  obtain ⟨rfl, rfl, rfl, rfl, rfl, rfl, rfl, rfl⟩ := mk8_inj hm'
  obtain ⟨d1, h⟩ := opt8_inj h
  obtain ⟨d2, h⟩ := opt8_inj h
  obtain ⟨d3, h⟩ := opt8_inj h
  obtain ⟨d4, h⟩ := opt8_inj h
  obtain ⟨d5, h⟩ := opt8_inj h
  obtain ⟨d6, h⟩ := opt8_inj h
  obtain ⟨d7, h⟩ := opt8_inj h
  obtain ⟨d8, h⟩ := opt8_inj h
  obtain ⟨e1, h⟩ := opt24_inj h
  obtain ⟨e2, h⟩ := opt24_inj h
  obtain ⟨e3, h⟩ := opt24_inj h
  obtain ⟨e4, h⟩ := opt24_inj h
  obtain ⟨e5, h⟩ := opt24_inj h
  obtain ⟨e6, h⟩ := opt24_inj h
  obtain ⟨e7, h⟩ := opt24_inj h
  have e8 := opt24_last h
  simp only [SrAdSensorsData.onto, present_bit, ite_same d1, ite_same d2, ite_same d3, ite_same d4, ite_same d5, ite_same d6, ite_same d7, ite_same d8,
    ite_same e1, ite_same e2, ite_same e3, ite_same e4, ite_same e5, ite_same e6, ite_same e7, ite_same e8]

/-- Two values that are read as the same one, sent as the same bytes. -/
theorem told_common {env : Env} {x x' y : SubData} {s : Bytes} (hx : x.WF env) (hx' : x'.WF env) (h : x.ReadBack env y) (h' : x'.ReadBack env y)
    (e : x.encode env = .ok s) (e' : x'.encode env = .ok s) : ∃ c, x.Told env c ∧ x'.Told env c := by
  have other : ∀ z : SubData, (∀ a, z ≠ .adSens a) → (∀ a, z ≠ .counters a) → z.ReadBack env y → z.Told env y := by
    intro z h1 h2 h
    cases z <;> first | exact h | exact absurd rfl (h1 _) | exact absurd rfl (h2 _)
  cases x with
  | adSens a =>
    have h : y = .adSens (a.readBack {}) := h
    subst h
    cases x' with
    | adSens b => exact ⟨.adSens (a.onto {}), rfl, congrArg SubData.adSens (sensors_told hx hx' (e.trans e'.symm)) ▸ rfl⟩
    | counters b => cases h'
    | _ => exact absurd h' (by simp [SubData.ReadBack, SubData.Same])
  | counters a =>
    have h : y = .counters (a.readBack {}) := h
    subst h
    cases x' with
    | counters b => exact ⟨.counters (a.onto {}), rfl, congrArg SubData.counters (counters_told hx hx' (e.trans e'.symm)) ▸ rfl⟩
    | adSens b => cases h'
    | _ => exact absurd h' (by simp [SubData.ReadBack, SubData.Same])
  | _ =>
    refine ⟨y, other _ (fun a => by simp) (fun a => by simp) h, other x' ?_ ?_ h'⟩
    · rintro a rfl
      have h' : y = .adSens (a.readBack {}) := h'
      subst h'
      exact absurd h (by simp [SubData.ReadBack, SubData.Same])
    · rintro a rfl
      have h' : y = .counters (a.readBack {}) := h'
      subst h'
      exact absurd h (by simp [SubData.ReadBack, SubData.Same])

/-! ## Subrecords with their heads -/

theorem rd_form {env : Env} {rd : RecordData} {d : SubData} {b : Bytes} (hd : rd.subrecordData = some d) (h : rd.encode env = .ok b) :
    ∃ hd s, b = hd ++ s ∧ hd.length = 3 ∧ d.encode env = .ok s := by
  unfold RecordData.encode at h
  obtain ⟨t, _, h⟩ := bind_eq_ok.mp h
  rw [hd] at h
  obtain ⟨s, hs, h⟩ := bind_eq_ok.mp h
  simp only [pure_eq_ok, Except.ok.injEq] at h
  refine ⟨[t] ++ put16 (if rd.subrecordLength = 0 then d.length env else rd.subrecordLength), s, h.symm, rfl, ?_⟩
  cases he : d.encode env with
  | ok s' => rw [he] at hs; cases hs; rfl
  | error _ => rw [he] at hs; cases hs

theorem rds_told (env : Env) (a a' out : List RecordData) (ha : ∀ rd ∈ a, rd.WF env) (ha' : ∀ rd ∈ a', rd.WF env) (b : Bytes)
    (e : RecordDataSet.encode env a = .ok b) (e' : RecordDataSet.encode env a' = .ok b)
    (h : List.Forall₂ (RecordData.ReadBack env) a out) (h' : List.Forall₂ (RecordData.ReadBack env) a' out) :
    ∃ c, List.Forall₂ (RecordData.Rel env (SubData.Told env)) a c ∧ List.Forall₂ (RecordData.Rel env (SubData.Told env)) a' c := by
  induction h generalizing a' b with
  | nil =>
    cases h'
    exact ⟨[], .nil, .nil⟩
  | @cons r o a out hr ht ih =>
    cases h' with
    | @cons r' _ a' _ hr' ht' =>
      simp only [RecordDataSet.encode] at e e'
      obtain ⟨s, hs, e⟩ := bind_eq_ok.mp e
      obtain ⟨t, ht1, e⟩ := bind_eq_ok.mp e
      obtain ⟨s', hs', e'⟩ := bind_eq_ok.mp e'
      obtain ⟨t', ht1', e'⟩ := bind_eq_ok.mp e'
      simp only [pure_eq_ok, Except.ok.injEq] at e e'
      obtain ⟨x, y, enc, x1, x2, x3, x4, x5, x6⟩ := hr
      obtain ⟨x', y', enc', x1', x2', x3', x4', x5', x6'⟩ := hr'
      rw [x2] at x2'
      cases x2'
      obtain ⟨hd, sd, rfl, l3, q⟩ := rd_form x1 hs
      obtain ⟨hd', sd', rfl, l3', q'⟩ := rd_form x1' hs'
      rw [x5] at q; cases q
      rw [x5'] at q'; cases q'
      rw [← e'] at e
      obtain ⟨q1, q2⟩ := List.append_inj e (by rw [List.length_append, List.length_append]; omega)
      obtain ⟨_, q3⟩ := List.append_inj q1 (by omega)
      subst q2
      subst q3
      obtain ⟨d, _, w1, w2, _⟩ := ha r (List.mem_cons_self ..)
      obtain ⟨d', _, w1', w2', _⟩ := ha' r' (List.mem_cons_self ..)
      rw [x1] at w1; cases w1
      rw [x1'] at w1'; cases w1'
      obtain ⟨c, c1, c2⟩ := told_common w2 w2' x3 x3' x5 x5'
      obtain ⟨cs, cs1, cs2⟩ := ih a' (fun rd h => ha rd (List.mem_cons_of_mem _ h)) (fun rd h => ha' rd (List.mem_cons_of_mem _ h)) t ht1 ht1' ht'
      refine ⟨⟨o.subrecordType, o.subrecordLength, some c⟩ :: cs, .cons ⟨x, c, enc, x1, rfl, c1, x4, x5, x6⟩ cs1,
        .cons ⟨x', c, enc, x1', rfl, c2, x4', x5', x6'⟩ cs2⟩

/-! ## Service data records -/

theorem sdr_form {env : Env} {r : ServiceDataRecord} {b : Bytes} (h : r.encode env = .ok b) :
    ∃ hd s, b = hd ++ s ∧ RecordDataSet.encode env r.recordDataSet = .ok s ∧
      hd.length = 7 + (optBytes r.obfe (zeros 4)).length + (optBytes r.evfe (zeros 4)).length + (optBytes r.tmfe (zeros 4)).length := by
  unfold ServiceDataRecord.encode at h
  obtain ⟨s, hs, h⟩ := bind_eq_ok.mp h
  obtain ⟨fl, _, h⟩ := bind_eq_ok.mp h
  simp only [pure_eq_ok, Except.ok.injEq] at h
  refine ⟨_, s, h.symm, hs, ?_⟩
  have l : ∀ (f x : Bytes), x.length = 4 → (optBytes f x).length = (optBytes f (zeros 4)).length := by
    intro f x hx
    unfold optBytes
    split
    · rw [hx]; rfl
    · rfl
  simp only [List.length_append, l _ (put32 _) rfl, List.length_cons, List.length_nil, show ∀ v, (put16 v).length = 2 from fun _ => rfl]
  omega

theorem sds_told (env : Env) (a a' out : List ServiceDataRecord) (ha : ∀ r ∈ a, r.WF env) (ha' : ∀ r ∈ a', r.WF env) (b : Bytes)
    (e : ServiceDataSet.encode env a = .ok b) (e' : ServiceDataSet.encode env a' = .ok b)
    (h : List.Forall₂ (ServiceDataRecord.ReadBack env) a out) (h' : List.Forall₂ (ServiceDataRecord.ReadBack env) a' out) :
    ∃ c, List.Forall₂ (ServiceDataRecord.Rel env (SubData.Told env)) a c ∧ List.Forall₂ (ServiceDataRecord.Rel env (SubData.Told env)) a' c := by
  induction h generalizing a' b with
  | nil =>
    cases h'
    exact ⟨[], .nil, .nil⟩
  | @cons r o a out hr ht ih =>
    cases h' with
    | @cons r' _ a' _ hr' ht' =>
      simp only [ServiceDataSet.encode] at e e'
      obtain ⟨s, hs, e⟩ := bind_eq_ok.mp e
      obtain ⟨t, ht1, e⟩ := bind_eq_ok.mp e
      obtain ⟨s', hs', e'⟩ := bind_eq_ok.mp e'
      obtain ⟨t', ht1', e'⟩ := bind_eq_ok.mp e'
      simp only [pure_eq_ok, Except.ok.injEq] at e e'
      obtain ⟨x1, ⟨enc, x2, x3⟩, x4⟩ := hr
      obtain ⟨x1', ⟨enc', x2', x3'⟩, x4'⟩ := hr'
      obtain ⟨hd, sd, rfl, q, l⟩ := sdr_form hs
      obtain ⟨hd', sd', rfl, q', l'⟩ := sdr_form hs'
      rw [x2] at q; cases q
      rw [x2'] at q'; cases q'
      have f1 : r.obfe = r'.obfe := ((by rw [x4] : o.obfe = r.obfe).symm).trans (by rw [x4'])
      have f2 : r.evfe = r'.evfe := ((by rw [x4] : o.evfe = r.evfe).symm).trans (by rw [x4'])
      have f3 : r.tmfe = r'.tmfe := ((by rw [x4] : o.tmfe = r.tmfe).symm).trans (by rw [x4'])
      rw [f1, f2, f3] at l
      rw [← e'] at e
      obtain ⟨q1, q2⟩ := List.append_inj e (by rw [List.length_append, List.length_append]; omega)
      obtain ⟨_, q3⟩ := List.append_inj q1 (by omega)
      subst q2
      subst q3
      have w := (ha r (List.mem_cons_self ..)).2.2.2.2.2.2.2.2.1
      have w' := (ha' r' (List.mem_cons_self ..)).2.2.2.2.2.2.2.2.1
      obtain ⟨c, c1, c2⟩ := rds_told env _ _ _ w w' enc x2 x2' x1 x1'
      obtain ⟨cs, cs1, cs2⟩ := ih a' (fun rd h => ha rd (List.mem_cons_of_mem _ h)) (fun rd h => ha' rd (List.mem_cons_of_mem _ h)) t ht1 ht1' ht'
      refine ⟨{ o with recordDataSet := c } :: cs, .cons ⟨c1, ⟨enc, x2, x3⟩, ?_⟩ cs1, .cons ⟨c2, ⟨enc, x2', x3'⟩, ?_⟩ cs2⟩
      · conv_lhs => rw [x4]
      · conv_lhs => rw [x4']

end Egts
