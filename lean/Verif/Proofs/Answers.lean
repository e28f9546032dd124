import Verif.Spec.Answers
import Verif.Props.Output
import Verif.Props.Layout

/-! # How many bytes records with logins take, and how many the answers (C110) -/

namespace Egts
open Layout

theorem zeros_at (n i : Nat) : byteAt (zeros n) i = 0 := by
  unfold byteAt zeros
  rw [List.getD_eq_getElem?_getD, List.getElem?_replicate]
  split <;> rfl

theorem zeros_drop (n k : Nat) : (zeros n).drop k = zeros (n - k) := by simp [zeros]

/-- Zeros hold no subrecord: they would be record responses without a number. -/
theorem zeros_subs {n : Nat} {rds : List RecordData} (h : IsSubrecords (zeros n) rds) : rds = [] := by
  have hn : num (zeros n) 1 2 = 0 := by simp [num, zeros_at]
  generalize hb : zeros n = b at h hn
  have h0 : byteAt b 0 = 0 := by rw [← hb]; exact zeros_at n 0
  cases h with
  | nil => rfl
  | known _ d rds _ hs _ =>
    rw [hn, h0, List.take_zero] at hs
    cases hs with
    | plain _ _ _ _ hk => simp [IsKind] at hk
    | response _ _ _ hl _ => simp at hl
  | unknown _ _ _ hu _ => rw [h0] at hu; exact absurd (by decide) hu

/-- One byte and zeros hold no login. -/
theorem padded_subs {x : UInt8} {n : Nat} {rds : List RecordData} (h : IsSubrecords (x :: zeros n) rds) : ∀ r ∈ rds, r.isLogin = false := by
  have hn : num (x :: zeros n) 1 2 = 0 := by
    have : ∀ i, byteAt (x :: zeros n) (i + 1) = 0 := fun i => zeros_at n i
    simp [num, this]
  have hd : (x :: zeros n).drop (3 + 0) = zeros (n - 2) := zeros_drop n 2
  generalize x :: zeros n = b at h hn hd
  cases h with
  | nil => intro r hr; cases hr
  | known _ d rds _ hs ht =>
    rw [hn] at hs ht
    rw [hd] at ht
    rw [zeros_subs ht, List.take_zero] at *
    intro r hr
    rw [List.mem_singleton.mp hr]
    generalize byteAt b 0 = t at hs
    cases hs with
    | response => rfl
    | plain _ _ _ _ hk =>
      rcases hk with ⟨_, _, _, rfl⟩ | ⟨_, h, _⟩ | ⟨_, _, _, rfl⟩ | ⟨_, _, rfl⟩ | ⟨_, _, _, rfl⟩ | ⟨_, _, _, rfl⟩ | ⟨_, _, rfl⟩ | ⟨_, _, rfl⟩ |
        ⟨_, _, rfl⟩ | ⟨_, y, h, rfl⟩ | ⟨_, _, _, rfl⟩ | ⟨_, _, _, _, _, _, rfl⟩ | ⟨_, _, rfl⟩ | ⟨_, _, rfl⟩ <;> try rfl
      · simp at h
      · obtain ⟨_, _, ⟨h, _⟩ | ⟨_, h, _⟩⟩ := h <;> simp at h
  | unknown _ _ _ _ ht =>
    rw [hn, hd] at ht
    rw [zeros_subs ht]
    intro r hr; cases hr

theorem login_length {b : Bytes} {rds : List RecordData} (h : IsSubrecords b rds) (hl : rds.any (·.isLogin) = true) : 2 ≤ b.length := by
  cases h with
  | nil => cases hl
  | known _ _ _ h => exact h
  | unknown _ _ h => exact h

/-- A record takes seven bytes, one with a login nine. -/
theorem records_size (n : Nat) (b : Bytes) (rs : List ServiceDataRecord) (hb : b.length ≤ n) (h : IsRecords b rs) :
    7 * rs.length ≤ b.length ∧ (rs.any (fun r => r.recordDataSet.any (·.isLogin)) = true → 7 * rs.length + 2 ≤ b.length) := by
  induction n generalizing b rs with
  | zero =>
    have : b = [] := List.length_eq_zero_iff.mp (by omega)
    subst this
    cases h with
    | nil => exact ⟨Nat.zero_le _, by simp⟩
    | bare _ h => simp [ServiceDataRecord.headLength] at h; omega
    | cons _ _ _ h => simp at h
  | succ n ih =>
    cases h with
    | nil => exact ⟨Nat.zero_le _, by simp⟩
    | bare _ h =>
      constructor
      · rw [h, ServiceDataRecord.headLength]; simp
      · intro hl; simp [ServiceDataRecord.head] at hl
    | cons _ rds rs h hs ht =>
      have h7 : 7 ≤ ServiceDataRecord.headLength b := by unfold ServiceDataRecord.headLength; omega
      obtain ⟨i1, i2⟩ := ih _ rs (by rw [List.length_drop]; omega) ht
      rw [List.length_drop] at i1 i2
      rw [List.length_cons, List.any_cons, Bool.or_eq_true]
      refine ⟨by omega, ?_⟩
      rintro (hl | hl)
      · have h2 := login_length hs hl
        have htl : (text b (ServiceDataRecord.headLength b) (num b 0 2)).length = num b 0 2 := by
          simp [text, zeros]; omega
        rw [htl] at h2
        by_cases h1 : b.length = ServiceDataRecord.headLength b + 1
        · exfalso
          have hx : ∃ x, b.drop (ServiceDataRecord.headLength b) = [x] :=
            List.length_eq_one_iff.mp (by rw [List.length_drop]; omega)
          obtain ⟨x, hx⟩ := hx
          have : text b (ServiceDataRecord.headLength b) (num b 0 2) = x :: zeros (num b 0 2 - 1) := by
            unfold text
            rw [hx, List.take_of_length_le (by simp; omega), show b.length - ServiceDataRecord.headLength b = 1 by omega]
            rfl
          rw [this] at hs
          obtain ⟨r, hr, hr'⟩ := List.any_eq_true.mp hl
          rw [padded_subs hs r hr] at hr'
          cases hr'
        · by_cases h0 : rs = []
          · subst h0; simp; omega
          · have := List.length_pos_iff.mpr h0
            omega
      · have := i2 hl
        omega

/-- The records of an accepted packet. -/
theorem accepts_size {env : Env} {pkt : Slice} {p : Package} {recs : List ServiceDataRecord} (h : Accepts env pkt p recs) :
    12 + 7 * recs.length ≤ pkt.data.length ∧
      (recs.any (fun r => r.recordDataSet.any (·.isLogin)) = true → 14 + 7 * recs.length ≤ pkt.data.length) := by
  obtain ⟨h1, _, h3⟩ := h
  obtain ⟨hf, d, ⟨x, hx, hd⟩, rfl⟩ := (C81_package env none {} p pkt).mp h1
  have hd' : d = .sds recs := by simp only [Frame.package] at h3; injection h3
  subst hd'
  have hlen : x.length = Frame.fdl pkt.data := by
    unfold Frame.clear at hx
    split at hx
    · cases hx
    · injection hx with hx
      rw [← hx]
      unfold Frame.body
      rw [List.length_append, List.length_take, zeros, List.length_replicate]
      omega
  have hh : 10 ≤ Frame.hcsPos pkt.data := by unfold Frame.hcsPos; split <;> omega
  have h0 := hf.1
  rcases hd with ⟨_, rs, hr, e⟩ | ⟨_, _, _, e⟩
  · injection e with e
    subst e
    obtain ⟨a, b⟩ := records_size _ _ _ (Nat.le_refl _) hr
    refine ⟨by omega, fun h => ?_⟩
    have := b h
    omega
  · cases e

theorem bytesWritten_append (a b : List Effect) : bytesWritten (a ++ b) = bytesWritten a + bytesWritten b := by
  simp [bytesWritten, writes_append]

theorem bytesWritten_saves (l : List NavRecord) : bytesWritten (l.map .save) = 0 := by rw [bytesWritten, writes_saves]; rfl

theorem bytesWritten_write (b : Bytes) : bytesWritten [.write b] = b.length := by simp [bytesWritten, writes]

theorem bytesWritten_nil : bytesWritten [] = 0 := rfl

/-- The answers to a packet: nothing, a refusal, or a confirmation of its records, after a login with the result of it. -/
theorem answer_size (env : Env) (now : Int) (client : UInt32) (pkt : Slice) :
    bytesWritten (handlePacket env now client pkt).effs = 0 ∨
    bytesWritten (handlePacket env now client pkt).effs = 16 ∨
    ∃ n, 1 ≤ n ∧
      (bytesWritten (handlePacket env now client pkt).effs = 23 + 6 * n ∧ 12 + 7 * n ≤ pkt.data.length ∨
       bytesWritten (handlePacket env now client pkt).effs = 47 + 6 * n ∧ 14 + 7 * n ≤ pkt.data.length) := by
  rcases packet_cases env pkt with h | ⟨p, code, e, h⟩ | ⟨p, h, hp⟩ | ⟨p, recs, h⟩
  · rw [handlePacket_panic env now client h]; exact .inl rfl
  · obtain ⟨r, ⟨_, hr⟩, h2⟩ := handlePacket_rejected env now client h
    rw [h2, bytesWritten_write, (createPtResponse_framed env _ code 0 [] (by simp) r hr).2.1]
    exact .inr (.inl rfl)
  · rw [handlePacket_response env now client h hp]; exact .inl rfl
  · rcases hasResp_cases recs with hr | hr
    · obtain ⟨ack, ⟨_, hn, ha⟩, h2⟩ := handlePacket_app env now client h hr
      obtain ⟨s1, s2⟩ := accepts_size h
      have hl := (createPtResponse_framed env _ _ _ recs hn ack ha).2.1
      rw [h2]
      simp only [bytesWritten_append, bytesWritten_saves, bytesWritten_write, hl]
      by_cases h0 : recs = []
      · subst h0; exact .inr (.inl rfl)
      · refine .inr (.inr ⟨recs.length, List.length_pos_iff.mpr h0, ?_⟩)
        rw [if_neg h0]
        by_cases hlog : recs.any (fun r => r.recordDataSet.any (·.isLogin)) = true
        · rw [if_pos hlog, bytesWritten_write, show (resultPacket p.packetIdentifier).length = 24 from rfl]
          exact .inr ⟨by omega, s2 hlog⟩
        · rw [if_neg hlog, bytesWritten_nil]
          exact .inl ⟨by omega, s1⟩
    · rw [bytesWritten, C46_record_response_silent env now client pkt p recs h hr]
      exact .inl rfl

/-- What is true of the answers to each frame is true of those to all. -/
theorem processAll_size (env : Env) (ce : ConnEnv) (a b : Nat) (frames : List Bytes) (i : Nat) (c : UInt32)
    (h : ∀ f ∈ frames, ∀ (sp : Bytes) (now : Int) (c : UInt32), a * bytesWritten (handlePacket env now c ⟨f, sp⟩).effs ≤ b * f.length) :
    a * bytesWritten (processAll env ce i c frames).effs ≤ b * frames.flatten.length := by
  induction frames generalizing i c with
  | nil => exact Nat.zero_le _
  | cons f fs ih =>
    have h0 := h f (List.mem_cons_self ..) (ce.spare i) (ce.clock i) c
    unfold processAll
    simp only [List.flatten_cons, List.length_append]
    split
    · rw [Nat.mul_add]; omega
    · rename_i c' _
      have := ih (i + 1) c' (fun f hf => h f (List.mem_cons_of_mem _ hf))
      rw [bytesWritten_append, Nat.mul_add, Nat.mul_add]
      omega

/-- Where reading stops nothing is written. -/
theorem stop_size {t : Bytes} {e : End} {effs : List Effect} (h3 : readPacket t e = .stop effs) : bytesWritten effs = 0 := by
  unfold readPacket at h3
  simp only at h3
  split at h3
  · split at h3
    · injection h3 with h3; subst h3; rfl
    · injection h3 with h3; subst h3; rfl
    · split at h3 <;> (injection h3 with h3; subst h3; rfl)
  · split at h3
    · injection h3 with h3; subst h3; rfl
    · split at h3
      · split at h3 <;> (injection h3 with h3; subst h3; rfl)
      · cases h3

end Egts
