import Verif.Proofs.NoNesting
import Verif.Props.Subrecords

/-! # Properties of record sets (C16-C21, C23) -/

namespace Egts

/-! ## C17 -/

def counter2 : SrCountersData :=
  { cfe1 := go!"0", cfe2 := go!"1", cfe3 := go!"0", cfe4 := go!"0", cfe5 := go!"0", cfe6 := go!"0", cfe7 := go!"0",
    cfe8 := go!"0", cn2 := 22 }

/-- Full statement of C17 (not provable): the theorem `C17_record_sets_partial` without the hypothesis
`Sound`. It fails because of C28, C29 and C32. -/
theorem C17_false (env : Env) : ∃ (rd : RecordData) (d : SrCountersData) (b : Bytes) (y : SrCountersData),
    rd.WF env ∧ rd.subrecordData = some (.counters d) ∧ RecordDataSet.encode env [rd] = .ok b ∧
    RecordDataSet.decode env [] b = .ok [{ subrecordType := 19, subrecordLength := 4, subrecordData := some (.counters y) }] ∧
    ¬ (SubData.counters d).Same env (.counters y) :=
  ⟨{ subrecordData := some (.counters counter2) }, counter2, [19, 4, 0, 2, 22, 0, 0],
    { counter2 with cn1 := 22, cn2 := 0 },
    ⟨_, [2, 22, 0, 0], rfl, by show SrCountersData.FlagsWF _; decide +kernel, .inr (.inl ⟨rfl, by decide, by decide⟩),
      by with_unfolding_all rfl, by decide, .inl rfl⟩,
    rfl, by with_unfolding_all rfl, by with_unfolding_all rfl, by show ¬ _ = _; decide +kernel⟩

/-- What the code does, for every list of well-formed subrecords: it is encoded, and decoding gives, after
whatever the receiver held, one subrecord for each in the same order, with what `SubData.ReadBack` says: the
same content, except for the three defects of C28, C29 and C32. -/
theorem C17_record_sets_exact (env : Env) (rds : List RecordData) (h : ∀ rd ∈ rds, rd.WF env) :
    ∃ b out, RecordDataSet.encode env rds = .ok b ∧ List.Forall₂ (RecordData.ReadBack env) rds out ∧
      ∀ prior, RecordDataSet.decode env prior b = .ok (prior ++ out) := by
  obtain ⟨b, out, e, s, d⟩ := rds_stream env rds h
  refine ⟨b, out, e, s, fun prior => ?_⟩
  have := d prior []
  rwa [List.append_nil, rds_decode_nil] at this

/-- Every list of well-formed subrecords is encoded, and decoding gives the same subrecords in the
same order, after whatever the receiver held. Missing: see `C17_false`. -/
theorem C17_record_sets_partial (env : Env) (rds : List RecordData) (h : ∀ rd ∈ rds, rd.WF env) (hs : ∀ rd ∈ rds, rd.Sound) :
    ∃ b out, RecordDataSet.encode env rds = .ok b ∧ List.Forall₂ (RecordData.Same env) rds out ∧
      ∀ prior, RecordDataSet.decode env prior b = .ok (prior ++ out) := by
  obtain ⟨b, out, e, s, d⟩ := C17_record_sets_exact env rds h
  exact ⟨b, out, e, forall₂_mono_mem (fun x hx y hy => rd_sound (h x hx) (hs x hx) hy) s, d⟩

/-- Two subrecords, one with its type left to be inferred and one with a wrong-looking but legal type. -/
def rdsExample : List RecordData :=
  [{ subrecordData := some (.absCntr { counterNumber := 110, counterValue := 12345 }) },
   { subrecordType := 2, subrecordData := some (.module { serialNumber := go!"SN" }) },
   { subrecordType := 20, subrecordLength := 5,
     subrecordData := some (.state { state := 2, nms := go!"1", ibu := go!"0", bbu := go!"0" }) }]

theorem rdsExample_wf (env : Env) : ∀ rd ∈ rdsExample, rd.WF env := by
  intro rd h
  simp only [rdsExample, List.mem_cons, List.not_mem_nil, or_false] at h
  rcases h with rfl | rfl | rfl
  · exact ⟨_, [110, 0x39, 0x30, 0], rfl, by show _ < _; decide, .inr (.inl ⟨rfl, by decide, by decide⟩), rfl, by decide, .inl rfl⟩
  · exact ⟨_, [0, 0, 0, 0, 0, 0, 0, 0, 0, 0, 0, 83, 78, 0, 0], rfl, by show _ ∧ _; unfold NoNul; decide, .inl rfl, rfl, by decide, .inl rfl⟩
  · exact ⟨_, [2, 0, 0, 0, 4], rfl, by show _ ∧ _; decide, .inr (.inr ⟨rfl, rfl⟩), rfl, by decide, .inr rfl⟩

theorem rdsExample_sound : ∀ rd ∈ rdsExample, rd.Sound := by
  intro rd h d hd
  simp only [rdsExample, List.mem_cons, List.not_mem_nil, or_false] at h
  rcases h with rfl | rfl | rfl <;> cases hd <;> trivial

example (env : Env) : (∀ rd ∈ rdsExample, rd.WF env) ∧ ∀ rd ∈ rdsExample, rd.Sound := ⟨rdsExample_wf env, rdsExample_sound⟩

/-! ## C16 -/

/-- What the code does, for every list of well-formed service records: it is encoded, and decoding gives,
after whatever the receiver held, one record for each in the same order, with the same fields and the
subrecords `RecordData.ReadBack` says. -/
theorem C16_service_sets_exact (env : Env) (s : List ServiceDataRecord) (h : ∀ r ∈ s, r.WF env) :
    ∃ b out, ServiceDataSet.encode env s = .ok b ∧ List.Forall₂ (ServiceDataRecord.ReadBack env) s out ∧
      ∀ prior, ServiceDataSet.decode env prior b = .ok (prior ++ out) := by
  obtain ⟨b, out, e, s, _, d⟩ := sds_stream env s h
  refine ⟨b, out, e, s, fun prior => ?_⟩
  have := d prior []
  rwa [List.append_nil, sds_decode_nil] at this

/-- Full statement of C16: as here, without the hypothesis `Sound` (see `C17_false` for why that fails). -/
theorem C16_service_sets_partial (env : Env) (s : List ServiceDataRecord) (h : ∀ r ∈ s, r.WF env) (hs : ∀ r ∈ s, r.Sound) :
    ∃ b out, ServiceDataSet.encode env s = .ok b ∧ List.Forall₂ (ServiceDataRecord.Same env) s out ∧
      ∀ prior, ServiceDataSet.decode env prior b = .ok (prior ++ out) := by
  obtain ⟨b, out, e, r, d⟩ := C16_service_sets_exact env s h
  exact ⟨b, out, e, sds_sound h hs r, d⟩

def sdrExample : ServiceDataRecord :=
  { recordNumber := 97, ssod := go!"1", rsod := go!"0", grp := go!"0", rpp := go!"10", tmfe := go!"1", evfe := go!"0", obfe := go!"1",
    objectIdentifier := 133552, time := timeOffset + 351389440 * 1000000000, sourceServiceType := 2, recipientServiceType := 2,
    recordDataSet := rdsExample }

theorem sdrExample_wf (env : Env) : sdrExample.WF env := by
  refine ⟨by decide, by decide, by decide, by decide, by decide, by decide, by decide, fun _ => ⟨351389440, by decide, rfl⟩,
    rdsExample_wf env, ?_⟩
  exact ⟨[25, 4, 0, 110, 0x39, 0x30, 0, 2, 15, 0, 0, 0, 0, 0, 0, 0, 0, 0, 0, 0, 0, 83, 78, 0, 0, 20, 5, 0, 2, 0, 0, 0, 4],
    by with_unfolding_all rfl, by decide, .inl rfl⟩

/-- A record without subrecords. -/
def sdrExample2 : ServiceDataRecord :=
  { recordNumber := 98, ssod := go!"0", rsod := go!"0", grp := go!"0", rpp := go!"00",
    tmfe := go!"0", evfe := go!"1", obfe := go!"0", eventIdentifier := 7 }

theorem sdrExamples_sound : ∀ r ∈ [sdrExample, sdrExample2], r.Sound := by
  intro r h
  simp only [List.mem_cons, List.not_mem_nil, or_false] at h
  rcases h with rfl | rfl
  · exact rdsExample_sound
  · exact fun _ h => absurd h List.not_mem_nil

example (env : Env) : (∀ r ∈ [sdrExample, sdrExample2], r.WF env) ∧ ∀ r ∈ [sdrExample, sdrExample2], r.Sound := by
  refine ⟨?_, sdrExamples_sound⟩
  intro r h
  simp only [List.mem_cons, List.not_mem_nil, or_false] at h
  rcases h with rfl | rfl
  · exact sdrExample_wf env
  · exact ⟨by decide, by decide, by decide, by decide, by decide, by decide, by decide, fun h => absurd h (by decide),
      fun _ h => absurd h List.not_mem_nil, [], rfl, by decide, .inl rfl⟩

/-! ## C18 -/

theorem C18_record_sets_compose (env : Env) (rds : List RecordData) (h : ∀ rd ∈ rds, rd.WF env) (b : Bytes)
    (he : RecordDataSet.encode env rds = .ok b) (prior : List RecordData) (r : Bytes) :
    RecordDataSet.decode env prior (b ++ r) =
      (RecordDataSet.decode env prior b).bind (fun mid => RecordDataSet.decode env mid r) := by
  obtain ⟨b', out, e, s, d⟩ := rds_stream env rds h
  rw [he] at e; cases e
  have h1 := d prior []
  rw [List.append_nil, rds_decode_nil] at h1
  rw [d prior r, h1]; rfl

theorem C18_service_sets_compose (env : Env) (s : List ServiceDataRecord) (h : ∀ r ∈ s, r.WF env) (b : Bytes)
    (he : ServiceDataSet.encode env s = .ok b) (prior : List ServiceDataRecord) (r : Bytes) :
    ServiceDataSet.decode env prior (b ++ r) =
      (ServiceDataSet.decode env prior b).bind (fun mid => ServiceDataSet.decode env mid r) := by
  obtain ⟨b', out, e, s, _, d⟩ := sds_stream env s h
  rw [he] at e; cases e
  have h1 := d prior []
  rw [List.append_nil, sds_decode_nil] at h1
  rw [d prior r, h1]; rfl

example (env : Env) : RecordDataSet.encode env rdsExample =
    .ok [25, 4, 0, 110, 0x39, 0x30, 0, 2, 15, 0, 0, 0, 0, 0, 0, 0, 0, 0, 0, 0, 0, 83, 78, 0, 0, 20, 5, 0, 2, 0, 0, 0, 4] := by
  with_unfolding_all rfl

/-! ## C19 -/

/-- The subrecord types the library knows. -/
def supportedTypes : List UInt8 := [0, 1, 2, 5, 7, 9, 15, 16, 17, 18, 19, 20, 21, 24, 25, 27]

/-- The bytes of a subrecord of type `t` with content `c`. -/
def rawSubrecord (t : UInt8) (c : Bytes) : Bytes := t :: UInt8.ofNat (c.length % 256) :: UInt8.ofNat (c.length / 256) :: c

theorem subDecode_unsupported : ∀ t : UInt8, t ∉ supportedTypes → ∀ env f len b, subDecode env f t len b = .ok none := by
  intro t ht env f len b
  have h : ∀ n : Nat, n < 256 → t.toNat = n → UInt8.ofNat n ∈ supportedTypes → False := by
    intro n _ e hm; apply ht; rw [← e, UInt8.ofNat_toNat] at hm; exact hm
  unfold subDecode
  split
  all_goals first
    | rfl
    | (rename_i e; exact absurd (by decide) (fun hm => h _ (by decide) e hm))

theorem C19_unknown_skipped (env : Env) (t : UInt8) (ht : t ∉ supportedTypes) (c : Bytes) (hc : c.length < 2 ^ 16)
    (prior : List RecordData) (r : Bytes) :
    RecordDataSet.decode env prior (rawSubrecord t c ++ r) = RecordDataSet.decode env prior r := by
  have hlen : le16 [UInt8.ofNat (c.length % 256), UInt8.ofNat (c.length / 256)] = UInt16.ofNat c.length := by
    have := le16_put16 (UInt16.ofNat c.length)
    have e : (UInt16.ofNat c.length).toNat = c.length := by rw [UInt16.toNat_ofNat']; exact Nat.mod_eq_of_lt hc
    rw [put16, e] at this
    exact this
  have hn : (UInt16.ofNat c.length).toNat = c.length := by rw [UInt16.toNat_ofNat']; exact Nat.mod_eq_of_lt hc
  have step : rdStep env (srRespDecode env (depthFor (rawSubrecord t c ++ r).length)) (rawSubrecord t c ++ r) = .ok (none, r) := by
    have e := bufferRead_full (buf := zeros 2) (x := [UInt8.ofNat (c.length % 256), UInt8.ofNat (c.length / 256)])
      (r := c ++ r) rfl (by simp)
    simp only [List.cons_append, List.nil_append] at e
    simp only [rawSubrecord, List.cons_append, rdStep, readByte_cons, ok_bind, e, hlen, hn, subDecode_unsupported t ht, pure_eq_ok,
      Option.map_none, List.drop_left]
  have := rds_decode_step env prior _ _ _ _ (by simp [rawSubrecord]) (Nat.le_refl _) step
  simpa using this

/-- Inserting an unsupported subrecord between two encoded sequences changes nothing. -/
theorem C19_unknown_inserted (env : Env) (t : UInt8) (ht : t ∉ supportedTypes) (c : Bytes) (hc : c.length < 2 ^ 16)
    (rds : List RecordData) (h : ∀ rd ∈ rds, rd.WF env) (b : Bytes) (he : RecordDataSet.encode env rds = .ok b)
    (prior : List RecordData) (r : Bytes) :
    RecordDataSet.decode env prior (b ++ rawSubrecord t c ++ r) = RecordDataSet.decode env prior (b ++ r) := by
  rw [List.append_assoc]
  obtain ⟨b', out, e, s, d⟩ := rds_stream env rds h
  rw [he] at e; cases e
  rw [d, d, C19_unknown_skipped env t ht c hc]

example : (22 : UInt8) ∉ supportedTypes ∧ (28 : UInt8) ∉ supportedTypes ∧ (255 : UInt8) ∉ supportedTypes := by decide

/-! ## C20 -/

/-- Decoding a record response looks at most `length/12 + 2` levels deep: the outcome is the same
whatever (even divergence, if Lean had it) is put below that level. -/
theorem C20_response_nesting (env : Env) (s : SrResponse) (b : Bytes) (f : Bytes → Except Err SrResponse) :
    SrResponse.decode env s b = unfoldResp env f (b.length / 12 + 2) b := by
  unfold SrResponse.decode
  rw [srRespDecode_eq]
  have h1 := mu_le b
  have h2 : mu b / 12 ≤ b.length / 12 := Nat.div_le_div_right h1
  by_cases h : b.length ≤ 0
  · have : b = [] := List.length_eq_zero_iff.mp (by omega)
    subst this
    exact unfoldResp_stable env _ _ _ _ _ (.inl ⟨rfl, by unfold depthFor; omega, by omega⟩)
  · refine unfoldResp_stable env _ _ _ _ _ (.inr ⟨?_, ?_⟩)
    · unfold depthFor; omega
    · omega

theorem C20_record_set_nesting (env : Env) (prior : List RecordData) (b : Bytes) (f : Bytes → Except Err SrResponse) :
    RecordDataSet.decode env prior b = rdsLoop env (unfoldResp env f (b.length / 12 + 2)) b.length prior b := by
  rw [← rdsDecode_depth env (b.length + 2) b.length prior b (by unfold depthFor; omega) (Nat.le_refl _), srRespDecode_eq]
  exact rds_unfold env _ _ _ _ _ _ _ (by omega) (Nat.le_refl _)

theorem C20_service_set_nesting (env : Env) (prior : List ServiceDataRecord) (b : Bytes) (f : Bytes → Except Err SrResponse) :
    ServiceDataSet.decode env prior b =
      sdsLoop (fun x => rdsLoop env (unfoldResp env f (b.length / 12 + 2)) x.length [] x) b.length prior b := by
  rw [← sdsDecode_depth env (b.length + 2) b.length prior b (by unfold depthFor; omega) (Nat.le_refl _)]
  have e : rdsDecodeD env (b.length + 2) =
      fun x => rdsLoop env (unfoldResp env (fun _ => .error .nesting) (b.length + 2)) x.length [] x := by
    funext x; rw [rdsDecodeD, srRespDecode_eq]
  rw [e]
  exact sds_unfold env _ _ _ _ _ _ _ (by omega) (Nat.le_refl _)

/-- The loops do not depend on their iteration bounds either, beyond the length of the input. -/
theorem C20_iterations (env : Env) (f : Bytes → Except Err SrResponse) (g : Bytes → Except Err (List RecordData))
    (n : Nat) (acc : List RecordData) (acc' : List ServiceDataRecord) (b : Bytes) (h : b.length ≤ n) :
    rdsLoop env f n acc b = rdsLoop env f b.length acc b ∧ sdsLoop g n acc' b = sdsLoop g b.length acc' b :=
  ⟨rdsLoop_fuel env f _ _ _ _ h (Nat.le_refl _), sdsLoop_fuel g _ _ _ _ h (Nat.le_refl _)⟩

/-- The model's artificial error never shows. -/
theorem C20_bound_never_hit (env : Env) (s : SrResponse) (p : List RecordData) (q : List ServiceDataRecord) (b : Bytes) :
    SrResponse.decode env s b ≠ .error .nesting ∧ RecordDataSet.decode env p b ≠ .error .nesting ∧
    ServiceDataSet.decode env q b ≠ .error .nesting := by
  have hf : ∀ x : Bytes, NN ((fun _ => .error .eof : Bytes → Except Err SrResponse) x) := fun _ => NN.err (by decide)
  refine ⟨?_, ?_, ?_⟩
  · rw [C20_response_nesting env s b (fun _ => .error .eof)]; exact unfoldResp_nn env _ hf _ _
  · rw [C20_record_set_nesting env p b (fun _ => .error .eof)]; exact rdsLoop_nn env _ (unfoldResp_nn env _ hf _) _ _ _
  · rw [C20_service_set_nesting env q b (fun _ => .error .eof)]
    exact sdsLoop_nn _ (fun x => rdsLoop_nn env _ (unfoldResp_nn env _ hf _) _ _ _) _ _ _

/-- Nesting does occur: a response inside a response. -/
example (env : Env) : ∃ b, SrResponse.decode env {} b = .ok { confirmedRecordNumber := 1, recordStatus := 0 } ∧ b.length = 16 ∧
    unfoldResp env (fun _ => .error .eof) 1 b = .error .eof :=
  ⟨[1, 0, 0, 6, 0, 5, 0, 0, 2, 2, 0, 3, 0, 9, 0, 0], rfl, rfl, rfl⟩

/-! ## C21 -/

theorem C21_record_count (env : Env) (b : Bytes) (out : List ServiceDataRecord)
    (h : ServiceDataSet.decode env [] b = .ok out) : out.length ≤ b.length / 7 := by
  have := sdsLoop_count _ _ _ _ _ h
  simp only [List.length_nil, Nat.sub_zero] at this
  omega

example (env : Env) : ∃ out, ServiceDataSet.decode env [] [0, 0, 1, 0, 0, 2, 2, 0, 0, 2, 0, 0, 2, 2] = .ok out ∧ out.length = 2 :=
  ⟨[{ recordNumber := 1, ssod := go!"0", rsod := go!"0", grp := go!"0", rpp := go!"00", tmfe := go!"0", evfe := go!"0",
      obfe := go!"0", sourceServiceType := 2, recipientServiceType := 2 },
    { recordNumber := 2, ssod := go!"0", rsod := go!"0", grp := go!"0", rpp := go!"00", tmfe := go!"0", evfe := go!"0",
      obfe := go!"0", sourceServiceType := 2, recipientServiceType := 2 }], by with_unfolding_all rfl, rfl⟩

/-! ## C23 -/

/-- Full statement of C23 (not provable): the next theorem for all kinds. Module data and
dispatcher identity cannot be encoded without giving the type. -/
theorem C23_false (env : Env) (d : SubData) (h : d.code = 2 ∨ d.code = 5) (len : UInt16) :
    RecordData.encode env { subrecordType := 0, subrecordLength := len, subrecordData := some d } = .error (.err .unknownKind) := by
  cases d <;> first | rfl | (exfalso; revert h; simp only [SubData.code]; decide)

/-- For all other kinds the wire type is the protocol's code of the kind and decodes to the same
kind, with the content C17 says. -/
theorem C23_type_inference_partial (env : Env) (d : SubData) (h : d.WF env) (hk : d.code ≠ 2 ∧ d.code ≠ 5) (b : Bytes)
    (he : d.encode env = .ok b) (hl : b.length < 2 ^ 16) :
    ∃ out y, RecordDataSet.encode env [{ subrecordType := 0, subrecordData := some d }] = .ok out ∧
      out.head? = some d.code ∧ y.code = d.code ∧ d.ReadBack env y ∧
      RecordDataSet.decode env [] out =
        .ok [{ subrecordType := d.code, subrecordLength := UInt16.ofNat b.length, subrecordData := some y }] := by
  obtain ⟨out, dec, e1, s1, d1⟩ := C17_record_sets_exact env [{ subrecordType := 0, subrecordData := some d }] (by
    intro rd hrd
    rw [List.mem_singleton] at hrd
    subst hrd
    exact ⟨d, b, rfl, h, .inr (.inl ⟨rfl, hk⟩), he, hl, .inl rfl⟩)
  have d1 := d1 []
  rw [List.nil_append] at d1
  cases dec with
  | nil => cases s1
  | cons rd tl =>
    obtain ⟨s, s'⟩ := List.forall₂_cons.mp s1
    cases s'
    obtain ⟨x, y, enc, hx, hy, hs, ht, hen, hlen⟩ := s
    cases hx
    rw [he] at hen; cases hen
    refine ⟨out, y, e1, ?_, readBack_code hs, hs, ?_⟩
    · have ht2 : (if (0 : UInt8) = 0 then liftErr (inferType (some d)) else (pure 0 : Except Fault UInt8)) = .ok d.code :=
        typeOK_encode d 0 (.inr (.inl ⟨rfl, hk⟩))
      have ht3 : liftErr (inferType (some d)) = .ok d.code := ht2
      have he2 : liftErr (d.encode env) = .ok b := by rw [he]; rfl
      simp only [RecordDataSet.encode, RecordData.encode] at e1
      simp only [if_true, ht3, ok_bind, he2, pure_eq_ok, Except.ok.injEq] at e1
      subst e1
      rfl
    · rw [d1]
      obtain ⟨t, l, dd⟩ := rd
      simp only at hy ht hlen
      have : l = UInt16.ofNat b.length := UInt16.toNat_inj.mp (by rw [hlen, UInt16.toNat_ofNat']; exact (Nat.mod_eq_of_lt hl).symm)
      subst hy this
      have : t = d.code := ht
      rw [this]

example (env : Env) : (SubData.result { resultCode := 3 }).WF env ∧ (SubData.result { resultCode := 3 }).code ≠ 2 := ⟨trivial, by decide⟩

end Egts
