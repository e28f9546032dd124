import Verif.Proofs.Left
import Verif.Props.Wire
import Verif.Props.Relay

/-! # C89: what a failed `Decode` leaves behind

`X.kept` is what the receiver `X` holds after its `Decode`, with or without error. -/

namespace Egts
open Layout

/-- `Decode` of service data records has failed with `e`: of the bytes `b`, a part `pre` in front was decoded; the records added to the
receiver, after those it had, are exactly those of `pre`. The error comes from what follows: `rest` alone gives the same error, and if
it begins with a complete record, the data of that record is what is wrong. -/
theorem C89_records (env : Env) (s0 : List ServiceDataRecord) (b : Bytes) (e : Err) (h : ServiceDataSet.decode env s0 b = .error e) :
    ∃ pre rest new, b = pre ++ rest ∧ rest ≠ [] ∧ ServiceDataSet.decode env [] pre = .ok new ∧ ServiceDataSet.kept env s0 b = s0 ++ new ∧
      ServiceDataSet.decode env [] rest = .error e ∧
      ∀ (r : ServiceDataRecord) (time : Nat) (data more : Bytes), r.FlagsWF → time < 2 ^ 32 → data.length < 2 ^ 16 →
        rest = r.wire time data ++ more → RecordDataSet.decode env [] data = .error e := by
  rcases sdsKept_loop env _ _ s0 b (Nat.le_refl _) (Nat.le_refl _) with ⟨out, h1, _⟩ | ⟨e', pre, rest, new, h1, h2, h3, h4, h5, h6⟩
  · rw [ServiceDataSet.decode, h1] at h; cases h
  rw [ServiceDataSet.decode, h1] at h
  cases h
  have hk : depthFor rest.length ≤ depthFor b.length := by rw [h2, List.length_append]; unfold depthFor; omega
  refine ⟨pre, rest, new, h2, h3, h4, h5, sds_decode_error env [] _ rest e h3 hk h6, fun r time data more hf ht hl hr => ?_⟩
  have hw := sdrStep_wire env r hf time ht data hl more (depthFor b.length) (by rw [← hr]; exact hk)
  rw [← hr, h6] at hw
  cases hd : RecordDataSet.decode env [] data with
  | error e' => rw [hd] at hw; cases hw; rfl
  | ok rds => rw [hd] at hw; cases hw

/-- The same for subrecords. -/
theorem C89_subrecords (env : Env) (s0 : List RecordData) (b : Bytes) (e : Err) (h : RecordDataSet.decode env s0 b = .error e) :
    ∃ pre rest new, b = pre ++ rest ∧ rest ≠ [] ∧ RecordDataSet.decode env [] pre = .ok new ∧ RecordDataSet.kept env s0 b = s0 ++ new ∧
      RecordDataSet.decode env [] rest = .error e ∧
      ∀ (t : UInt8) (data more : Bytes), data.length < 2 ^ 16 → rest = subrecordWire t data ++ more →
        RecordDataSet.decode env [] (subrecordWire t data) = .error e := by
  rcases rdsKept_loop env _ _ s0 b (Nat.le_refl _) (Nat.le_refl _) with ⟨out, h1, _⟩ | ⟨e', pre, rest, new, h1, h2, h3, h4, h5, h6⟩
  · rw [RecordDataSet.decode, h1] at h; cases h
  rw [RecordDataSet.decode, h1] at h
  cases h
  have hk : depthFor rest.length ≤ depthFor b.length := by rw [h2, List.length_append]; unfold depthFor; omega
  refine ⟨pre, rest, new, h2, h3, h4, h5, rds_decode_error env [] _ rest e h3 hk h6, fun t data more hl hr => ?_⟩
  have hw := rdStep_wire env (srRespDecode env (depthFor b.length)) t data hl more
  have hw' := rdStep_wire env (srRespDecode env (depthFor b.length)) t data hl []
  rw [← hr, h6] at hw
  rw [List.append_nil] at hw'
  cases hd : subDecode env (srRespDecode env (depthFor b.length)) t (UInt16.ofNat data.length) data with
  | error e' =>
    rw [hd] at hw hw'
    cases hw
    refine rds_decode_error env [] _ _ _ (by simp [subrecordWire]) ?_ hw'
    rw [hr, List.length_append] at hk
    unfold depthFor at *; omega
  | ok d => rw [hd] at hw; cases hw

/-- Without an error, the receiver holds the result. -/
theorem C89_success (env : Env) (s0 out : List ServiceDataRecord) (t0 subs : List RecordData) (b : Bytes) :
    (ServiceDataSet.decode env s0 b = .ok out → ServiceDataSet.kept env s0 b = out) ∧
    (RecordDataSet.decode env t0 b = .ok subs → RecordDataSet.kept env t0 b = subs) := by
  constructor
  · intro h
    rcases sdsKept_loop env _ _ s0 b (Nat.le_refl _) (Nat.le_refl _) with ⟨out', h1, h2⟩ | ⟨e', _, _, _, h1, _⟩
    · rw [ServiceDataSet.decode, h1] at h; cases h; exact h2
    · rw [ServiceDataSet.decode, h1] at h; cases h
  · intro h
    rcases rdsKept_loop env _ _ t0 b (Nat.le_refl _) (Nat.le_refl _) with ⟨out', h1, h2⟩ | ⟨e', _, _, _, h1, _⟩
    · rw [RecordDataSet.decode, h1] at h; cases h; exact h2
    · rw [RecordDataSet.decode, h1] at h; cases h

/-- Two records, a third whose state is too short. -/
example (env : Env) : ServiceDataSet.decode env [] ([0, 0, 1, 0, 0, 2, 2] ++ [4, 0, 2, 0, 0, 2, 2, 9, 1, 0, 5] ++ [4, 0, 3, 0, 0, 2, 2, 21, 1, 0, 5]) = .error .eof ∧
    (ServiceDataSet.kept env [] ([0, 0, 1, 0, 0, 2, 2] ++ [4, 0, 2, 0, 0, 2, 2, 9, 1, 0, 5] ++ [4, 0, 3, 0, 0, 2, 2, 21, 1, 0, 5])).map (·.recordNumber) = [1, 2] := by
  constructor <;> with_unfolding_all rfl

example (env : Env) : RecordDataSet.decode env [] [9, 1, 0, 5, 21, 1, 0, 5] = .error .eof ∧
    RecordDataSet.kept env [] [9, 1, 0, 5, 21, 1, 0, 5] = [⟨9, 1, some (.result ⟨5⟩)⟩] := by
  constructor <;> with_unfolding_all rfl

/-! ## Packages -/

/-- `new` are the records of a part in front of `x`. What follows it is nothing, or it is what gives the error `e`. -/
def RecordsUpTo (env : Env) (e : Err) (x : Bytes) (new : List ServiceDataRecord) : Prop :=
  ∃ pre rest, x = pre ++ rest ∧ ServiceDataSet.decode env [] pre = .ok new ∧ (rest = [] ∨ ServiceDataSet.decode env [] rest = .error e)

theorem upTo_kept (env : Env) (e : Err) (x : Bytes) (h : ServiceDataSet.decode env [] x = .error e) :
    RecordsUpTo env e x (ServiceDataSet.kept env [] x) := by
  obtain ⟨pre, rest, new, h1, _, h2, h3, h4, _⟩ := C89_records env [] x e h
  exact ⟨pre, rest, h1, by rw [h3]; exact h2, .inr h4⟩

/-- A response of which the decoder has seen `x`. -/
def ResponseUpTo (env : Env) (e : Err) (x : Bytes) (y : PtResponse) : Prop :=
  (x = [] ∧ y = {}) ∨
  (x ≠ [] ∧ x.length ≤ 2 ∧ y = { responsePacketID := UInt16.ofNat (num x 0 2) }) ∨
  (3 ≤ x.length ∧ y.responsePacketID = UInt16.ofNat (num x 0 2) ∧ y.processingResult = UInt8.ofNat (byteAt x 2) ∧
    (x.length = 3 ∧ y.sdr = none ∨ 3 < x.length ∧ ∃ new, y.sdr = some new ∧ RecordsUpTo env e (x.drop 3) new))

theorem le16_num : ∀ a b : UInt8, le16 [a, b] = UInt16.ofNat (a.toNat + 256 * (b.toNat + 256 * 0)) := fun _ _ => rfl

theorem response_kept (env : Env) (e : Err) (x : Bytes) (h : PtResponse.decode env {} x = .error e) :
    ResponseUpTo env e x (PtResponse.kept env {} x) := by
  rcases x with _ | ⟨a, _ | ⟨b, _ | ⟨c, x⟩⟩⟩
  · exact .inl ⟨rfl, rfl⟩
  · exact .inr (.inl ⟨by simp, by simp, by simp [PtResponse.kept, bufferRead, zeros, readByte, le16, num, byteAt]⟩)
  · exact .inr (.inl ⟨by simp, by simp, by simp [PtResponse.kept, bufferRead, zeros, readByte, le16, num, byteAt]⟩)
  · have hk : PtResponse.kept env {} (a :: b :: c :: x) =
        { responsePacketID := le16 [a, b], processingResult := c, sdr := if x ≠ [] then some (ServiceDataSet.kept env [] x) else none } := by
      simp [PtResponse.kept, bufferRead, zeros, readByte]
    rw [hk]
    refine .inr (.inr ⟨by simp, rfl, (UInt8.ofNat_toNat).symm, ?_⟩)
    cases x with
    | nil => exact .inl ⟨rfl, rfl⟩
    | cons d x =>
      refine .inr ⟨by simp, _, rfl, upTo_kept env e _ ?_⟩
      simp only [PtResponse.decode, bufferRead, zeros, reduceCtorEq, false_and, if_false, ok_bind, List.replicate, List.length_cons,
        List.length_nil, List.take_succ_cons, List.take_zero, List.drop_succ_cons, List.drop_zero, List.drop_nil, List.append_nil, readByte_cons,
        ne_eq, not_false_eq_true, if_true] at h
      show ServiceDataSet.decode env [] (d :: x) = _
      cases hs : ServiceDataSet.decode env [] (d :: x) with
      | error e' => rw [hs] at h; cases h; rfl
      | ok s => rw [hs] at h; cases h

theorem response_whole (env : Env) (e : Err) (x : Bytes) (y : PtResponse) (h : PtResponse.decode env {} x = .ok y) :
    ResponseUpTo env e x y := by
  rcases x with _ | ⟨a, _ | ⟨b, _ | ⟨c, x⟩⟩⟩
  · simp [PtResponse.decode, bufferRead, zeros, readByte, error_bind] at h
  · simp [PtResponse.decode, bufferRead, zeros, readByte, error_bind, ok_bind] at h
  · simp [PtResponse.decode, bufferRead, zeros, readByte, error_bind, ok_bind] at h
  · simp only [PtResponse.decode, bufferRead, zeros, reduceCtorEq, false_and, if_false, ok_bind, List.replicate, List.length_cons,
        List.length_nil, List.take_succ_cons, List.take_zero, List.drop_succ_cons, List.drop_zero, List.drop_nil, List.append_nil, readByte_cons] at h
    cases x with
    | nil =>
      cases h
      exact .inr (.inr ⟨by simp, rfl, (UInt8.ofNat_toNat).symm, .inl ⟨rfl, rfl⟩⟩)
    | cons d x =>
      simp only [ne_eq, reduceCtorEq, not_false_eq_true, if_true] at h
      cases hs : ServiceDataSet.decode env [] (d :: x) with
      | error e' => rw [hs] at h; cases h
      | ok s =>
        rw [hs] at h
        cases h
        exact .inr (.inr ⟨by simp, rfl, (UInt8.ofNat_toNat).symm, .inr ⟨by simp, s, rfl, d :: x, [], (List.append_nil _).symm, hs, .inl rfl⟩⟩)

/-- The header of the frame is refused: it is cut, its checksum is wrong, nothing follows it, or the packet type is unknown. -/
def HeaderRefused (c : Slice) : Prop :=
  let b := c.data
  b.length ≤ Frame.hcsPos b ∨ byteAt b (Frame.hcsPos b) ≠ (crc8 (c.all.take (Frame.headEnd b))).toNat ∨
    Frame.rest b = [] ∨ Frame.pt b ≠ 0 ∧ Frame.pt b ≠ 1

/-- `Decode` of a packet has failed with `e`. If its header was refused, the body that the package held before is still there. Otherwise the
old body is gone, and the package holds as many records of the new one as could be decoded; all of them, if it is the body checksum
that is wrong or missing; none, if decryption failed. -/
theorem C89_package (env : Env) (key : Option SecretKey) (p q : Package) (c : Slice) (code : UInt8) (e : Err)
    (h : Package.decode env key p c = .ret q code (some e)) :
    (HeaderRefused c ∧ q.servicesFrameData = p.servicesFrameData) ∨
    (¬ HeaderRefused c ∧ Frame.pt c.data = 1 ∧ ∃ new, q.servicesFrameData = some (.sds new) ∧
      (Frame.clear key c.data = .error e ∧ new = [] ∨ ∃ x, Frame.clear key c.data = .ok x ∧ RecordsUpTo env e x new)) ∨
    (¬ HeaderRefused c ∧ Frame.pt c.data = 0 ∧ ∃ y, q.servicesFrameData = some (.resp y) ∧
      (Frame.clear key c.data = .error e ∧ y = {} ∨ ∃ x, Frame.clear key c.data = .ok x ∧ ResponseUpTo env e x y)) := by
  by_cases hs : c.data.length ≤ Frame.hcsPos c.data
  · obtain ⟨p', h', h2, _⟩ := (decode_header env key p c).1 hs
    rw [h'] at h
    cases h
    exact .inl ⟨.inl hs, h2⟩
  rw [decode_tail env key p c (by omega)] at h
  by_cases h1 : c.all.length < Frame.headEnd c.data
  · rw [if_pos h1] at h; cases h
  rw [if_neg h1] at h
  by_cases h2 : byteAt c.data (Frame.hcsPos c.data) ≠ (crc8 (c.all.take (Frame.headEnd c.data))).toNat
  · rw [if_pos h2] at h
    cases h
    exact .inl ⟨.inr (.inl h2), rfl⟩
  rw [if_neg h2, decode_body env key p c] at h
  by_cases h3 : Frame.rest c.data = []
  · rw [if_pos h3] at h
    cases h
    exact .inl ⟨.inr (.inr (.inl h3)), rfl⟩
  rw [if_neg h3] at h
  by_cases h4 : Frame.pt c.data ≠ 0 ∧ Frame.pt c.data ≠ 1
  · rw [if_pos h4] at h
    cases h
    exact .inl ⟨.inr (.inr (.inr h4)), rfl⟩
  rw [if_neg h4] at h
  have hr : ¬ HeaderRefused c := by
    rintro (h | h | h | h)
    · exact hs h
    · exact h2 h
    · exact h3 h
    · exact h4 h
  -- the body that is left, and where it comes from
  have key1 : ∃ d, q.servicesFrameData = some d ∧ (Frame.content env key c.data = .error e ∧ d = Frame.leftover env key c.data ∨ Frame.content env key c.data = .ok d) := by
    cases hd : Frame.content env key c.data with
    | error e' =>
      rw [hd] at h
      cases h
      exact ⟨_, rfl, .inl ⟨rfl, rfl⟩⟩
    | ok d =>
      rw [hd] at h
      simp only at h
      split at h
      · cases h; exact ⟨d, rfl, .inr rfl⟩
      · split at h
        · cases h
        · split at h
          · cases h; exact ⟨d, rfl, .inr rfl⟩
          · cases h
  obtain ⟨d, hq, hd⟩ := key1
  by_cases hpt : Frame.pt c.data = 1
  · refine .inr (.inl ⟨hr, hpt, ?_⟩)
    unfold Frame.content Frame.leftover at hd
    cases hx : Frame.clear key c.data with
    | error e' =>
      simp only [hx, if_pos hpt] at hd
      rcases hd with ⟨hd, rfl⟩ | hd
      · cases hd; exact ⟨[], hq, .inl ⟨rfl, rfl⟩⟩
      · cases hd
    | ok x =>
      simp only [hx, if_pos hpt, ok_bind] at hd
      cases hy : ServiceDataSet.decode env [] x with
      | error e' =>
        rw [hy] at hd
        rcases hd with ⟨hd, rfl⟩ | hd
        · cases hd; exact ⟨_, hq, .inr ⟨x, rfl, upTo_kept env e x hy⟩⟩
        · cases hd
      | ok s =>
        rw [hy] at hd
        rcases hd with ⟨hd, _⟩ | hd
        · cases hd
        · cases hd; exact ⟨s, hq, .inr ⟨x, rfl, x, [], (List.append_nil _).symm, hy, .inl rfl⟩⟩
  · have hpt0 : Frame.pt c.data = 0 := by
      by_contra h0
      exact h4 ⟨h0, hpt⟩
    refine .inr (.inr ⟨hr, hpt0, ?_⟩)
    unfold Frame.content Frame.leftover at hd
    cases hx : Frame.clear key c.data with
    | error e' =>
      simp only [hx, if_neg hpt] at hd
      rcases hd with ⟨hd, rfl⟩ | hd
      · cases hd; exact ⟨{}, hq, .inl ⟨rfl, rfl⟩⟩
      · cases hd
    | ok x =>
      simp only [hx, if_neg hpt, ok_bind] at hd
      cases hy : PtResponse.decode env {} x with
      | error e' =>
        rw [hy] at hd
        rcases hd with ⟨hd, rfl⟩ | hd
        · cases hd; exact ⟨_, hq, .inr ⟨x, rfl, response_kept env e x hy⟩⟩
        · cases hd
      | ok s =>
        rw [hy] at hd
        rcases hd with ⟨hd, _⟩ | hd
        · cases hd
        · cases hd; exact ⟨s, hq, .inr ⟨x, rfl, response_whole env e x s hy⟩⟩

/-- It happens: of the two records of this frame, the first is left. -/
example (env : Env) : Package.decode env none {} ⟨mixedAgain, []⟩ = .ret mixedLeft 129 (some .eof) ∧
    ∃ r, mixedLeft.servicesFrameData = some (.sds [r]) ∧ r.recordNumber = 1 :=
  ⟨mixed_again env, _, rfl, rfl⟩

set_option maxRecDepth 20000 in
/-- A package used again: the header is that of the second, refused, packet, the records are those of the first. -/
example (env : Env) : ∃ q, Package.decode env none mixedPackage ⟨[1, 0, 0, 11, 0, 27, 0, 77, 0, 1, 0], []⟩ = .ret q 137 (some .checksum) ∧
    q.packetIdentifier = 77 ∧ q.servicesFrameData = mixedPackage.servicesFrameData :=
  ⟨_, by with_unfolding_all rfl, by with_unfolding_all rfl, by with_unfolding_all rfl⟩

end Egts
