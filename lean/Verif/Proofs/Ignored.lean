import Verif.Spec.Ignored
import Verif.Proofs.Server
import Verif.Proofs.Conn

/-! # Lemmas on packets that differ in their headers only -/

namespace Egts

/-- The stages of decoding after an intact header. -/
theorem outcome_intact (env : Env) (key : Option SecretKey) {f : Bytes} (sp : Bytes) (hh : HeaderOk f) (ho : Frame.Honest f) :
    Frame.outcome env key ⟨f, sp⟩ =
      if Frame.rest f = [] then .code 132
      else if Frame.pt f ≠ 0 ∧ Frame.pt f ≠ 1 then .code 133
      else if (Frame.content env key f).isOk = false then .code 129
      else if Frame.after f = [] then .code 129
      else if Frame.sfrcs f ≠ (crc16 ((Frame.rest f).take (Frame.fdl f))).toNat then .code 137
      else .code 0 := by
  obtain ⟨h1, h2⟩ := hh
  obtain ⟨o1, o2⟩ := ho
  have hp : Frame.headEnd f = Frame.hcsPos f := by unfold Frame.headEnd; rw [o1]; simp
  have hb : Frame.bodyEnd f = Frame.hcsPos f + 1 + Frame.fdl f := by unfold Frame.bodyEnd; rw [Nat.mod_eq_of_lt o2, o1]
  have ha : Frame.after f = [] ↔ f.length ≤ Frame.hcsPos f + 1 + Frame.fdl f := by
    unfold Frame.after Frame.rest
    rw [List.drop_drop]; exact List.drop_eq_nil_iff
  unfold Frame.outcome
  simp only [Slice.all, hp, hb]
  rw [if_neg (by omega), if_neg (by rw [List.length_append]; omega), List.take_append_of_le_length (by omega), if_neg (by rw [h2]; exact not_not.mpr rfl)]
  by_cases hr : Frame.rest f = []
  · rw [if_pos hr, if_pos hr]
  rw [if_neg hr, if_neg hr]
  by_cases ht : Frame.pt f ≠ 0 ∧ Frame.pt f ≠ 1
  · rw [if_pos ht, if_pos ht]
  rw [if_neg ht, if_neg ht]
  by_cases hc : (Frame.content env key f).isOk = false
  · rw [if_pos hc, if_pos hc]
  rw [if_neg hc, if_neg hc]
  by_cases hf : Frame.after f = []
  · rw [if_pos hf, if_pos hf]
  rw [if_neg hf, if_neg hf]
  rw [ha] at hf
  rw [if_neg (by rw [List.length_append, o1]; omega), List.take_append_of_le_length (by omega)]
  have : (f.take (Frame.hcsPos f + 1 + Frame.fdl f)).drop (Frame.hl f) = (Frame.rest f).take (Frame.fdl f) := by
    rw [o1]; unfold Frame.rest
    rw [List.drop_take, Nat.add_sub_cancel_left]
  rw [this]

variable {f g : Bytes}

theorem SameData.body (h : SameData f g) : Frame.body f = Frame.body g := by unfold Frame.body; rw [h.rest, h.fdl]

theorem SameData.after (h : SameData f g) : Frame.after f = Frame.after g := by unfold Frame.after; rw [h.rest, h.fdl]

theorem SameData.clear (h : SameData f g) (key : Option SecretKey) : Frame.clear key f = Frame.clear key g := by
  unfold Frame.clear
  rw [h.body]
  by_cases he : Frame.Encrypted f
  · rw [if_pos he, if_pos (h.encrypted.mp he)]
  · rw [if_neg he, if_neg fun hg => he (h.encrypted.mpr hg)]

theorem SameData.content (h : SameData f g) (env : Env) (key : Option SecretKey) : Frame.content env key f = Frame.content env key g := by
  unfold Frame.content
  rw [h.clear, h.pt]

theorem SameData.sfrcs (h : SameData f g) : Frame.sfrcs f = Frame.sfrcs g := by unfold Frame.sfrcs; rw [h.after]

theorem SameData.outcome (h : SameData f g) (env : Env) (key : Option SecretKey) (sp sp' : Bytes) :
    Frame.outcome env key ⟨f, sp⟩ = Frame.outcome env key ⟨g, sp'⟩ := by
  rw [outcome_intact env key sp h.header.1 h.honest.1, outcome_intact env key sp' h.header.2 h.honest.2,
    h.rest, h.pt, h.content, h.after, h.sfrcs, h.fdl]

theorem HeaderOk.ten (h : HeaderOk f) : 10 ≤ f.length := by
  have : 10 ≤ Frame.hcsPos f := by unfold Frame.hcsPos; split <;> omega
  have := h.1
  omega

/-- What the receiver does with a packet depends on how decoding ends, the number, the type and the body. -/
theorem handlePacket_congr (env : Env) (now : Int) (client : UInt32) {c c' : Slice} (hl : 10 ≤ c.data.length) (hl' : 10 ≤ c'.data.length)
    (ho : Frame.outcome env none c = Frame.outcome env none c') (hi : Frame.pid c.data = Frame.pid c'.data) (ht : Frame.pt c.data = Frame.pt c'.data)
    (hc : Frame.content env none c.data = Frame.content env none c'.data) : handlePacket env now client c = handlePacket env now client c' := by
  obtain ⟨h1, h2⟩ := decode_frame env none {} c
  obtain ⟨h1', h2'⟩ := decode_frame env none {} c'
  rw [← h1, ← h1'] at ho
  unfold handlePacket
  cases hd : Package.decode env none {} c with
  | panic =>
    cases hd' : Package.decode env none {} c' with
    | panic => rfl
    | ret q code e => rw [hd, hd'] at ho; cases ho
  | ret q code e =>
    cases hd' : Package.decode env none {} c' with
    | panic => rw [hd, hd'] at ho; cases ho
    | ret q' code' e' =>
      rw [hd, hd'] at ho
      simp only [DecodeResult.outcome, Frame.Outcome.code.injEq] at ho
      subst ho
      obtain ⟨a1, a2, a3⟩ := h2 _ _ _ hd
      obtain ⟨b1, b2, b3⟩ := h2' _ _ _ hd'
      have ei : q.packetIdentifier = q'.packetIdentifier := by rw [(a2 hl).1, (b2 hl').1, hi]
      have et : q.packetType = q'.packetType := by rw [(a2 hl).2, (b2 hl').2, ht]
      cases e with
      | some e =>
        cases e' with
        | none => exact absurd (a1.mpr (b1.mp rfl)) (by simp)
        | some e' => simp only [ei]
      | none =>
        cases e' with
        | some e' => exact absurd (b1.mpr (a1.mp rfl)) (by simp)
        | none =>
          obtain ⟨d, g1, g2⟩ := a3 (a1.mp rfl)
          obtain ⟨d', g1', g2'⟩ := b3 (b1.mp rfl)
          rw [hc, g1', Except.ok.injEq] at g1
          have es : q.servicesFrameData = q'.servicesFrameData := by rw [g2, g2']; simp only [Frame.package, g1]
          simp only [ei, et, es]

theorem SameData.handlePacket (h : SameData f g) (env : Env) (now : Int) (client : UInt32) (sp sp' : Bytes) :
    handlePacket env now client ⟨f, sp⟩ = handlePacket env now client ⟨g, sp'⟩ :=
  handlePacket_congr env now client h.header.1.ten h.header.2.ten (h.outcome env none sp sp') h.pid h.pt (h.content env none)

theorem SameData.processAll (env : Env) (ce ce' : ConnEnv) (hc : ce.clock = ce'.clock) {fs gs : List Bytes} (h : List.Forall₂ SameData fs gs)
    (i : Nat) (c : UInt32) : processAll env ce i c fs = processAll env ce' i c gs := by
  induction h generalizing i c with
  | nil => rfl
  | cons h _ ih =>
    simp only [Egts.processAll]
    rw [h.handlePacket env (ce.clock i) c (ce.spare i) (ce'.spare i), hc]
    cases (Egts.handlePacket env (ce'.clock i) c _).client with
    | none => rfl
    | some c' => simp only [ih]

/-! ## Other headers -/

theorem headWith_length (prv skid flags he : UInt8) (routing : Bytes) (hl : 10 ≤ f.length) :
    (headWith prv skid flags he routing f).length = 10 + routing.length := by
  simp only [headWith, List.length_append, List.length_cons, List.length_nil, List.length_drop, List.length_take]
  omega

theorem relabel_byte (prv skid flags he : UInt8) (routing : Bytes) (hl : 10 ≤ f.length) (i : Nat) (h5 : 5 ≤ i) (h10 : i < 10) :
    byteAt (relabel prv skid flags he routing f) i = byteAt f i := by
  have hd : ((f.take 10).drop 5).length = 5 := by simp only [List.length_drop, List.length_take]; omega
  have e : relabel prv skid flags he routing f = [prv, skid, flags, UInt8.ofNat (11 + routing.length), he] ++ ((f.take 10).drop 5 ++
      (routing ++ [crc8 (headWith prv skid flags he routing f)] ++ Frame.rest f)) := by simp [relabel, headWith]
  rw [e]
  unfold byteAt
  rw [List.getD_eq_getElem?_getD, List.getD_eq_getElem?_getD, List.getElem?_append_right (by simp; omega), List.getElem?_append_left (by simp; omega),
    List.getElem?_drop, List.getElem?_take_of_lt (by simp; omega)]
  congr 2
  simp only [List.length_cons, List.length_nil]
  congr 1
  omega

/-- With any other version, key number, prefix, compression flag, priority, header encoding, routing, and number of the encryption algorithm
unless it is 0. -/
theorem relabel_same (prv skid flags he : UInt8) (routing : Bytes) (hh : HeaderOk f) (hl : Frame.fdl f + 16 < 65536)
    (ho : Frame.Honest f) (hr : (flags.toNat / 32 % 2 = 1 ∧ routing.length = 5) ∨ (flags.toNat / 32 % 2 = 0 ∧ routing = []))
    (he' : flags.toNat / 8 % 4 = 0 ↔ ¬ Frame.Encrypted f) : SameData f (relabel prv skid flags he routing f) := by
  have h10 := hh.ten
  have hb := relabel_byte prv skid flags he routing h10
  have b2 : byteAt (relabel prv skid flags he routing f) 2 = flags.toNat := rfl
  have b3 : byteAt (relabel prv skid flags he routing f) 3 = 11 + routing.length := by
    show (UInt8.ofNat (11 + routing.length)).toNat = _
    rw [UInt8.toNat_ofNat']
    rcases hr with ⟨_, e⟩ | ⟨_, e⟩
    · rw [e]
    · rw [e]; rfl
  have hpos : Frame.hcsPos (relabel prv skid flags he routing f) = 10 + routing.length := by
    unfold Frame.hcsPos
    rcases hr with ⟨e1, e2⟩ | ⟨e1, e2⟩
    · rw [if_pos (show Frame.Routed _ by unfold Frame.Routed; rw [b2]; exact e1), e2]
    · rw [if_neg (show ¬ Frame.Routed _ by unfold Frame.Routed; rw [b2, e1]; decide), e2]; rfl
  have hfdl : Frame.fdl (relabel prv skid flags he routing f) = Frame.fdl f := by
    unfold Frame.fdl; rw [hb 5 (by omega) (by omega), hb 6 (by omega) (by omega)]
  have hlen := headWith_length prv skid flags he routing h10
  have hrl : routing.length ≤ 5 := by
    rcases hr with ⟨_, e⟩ | ⟨_, e⟩
    · omega
    · rw [e]; simp
  refine ⟨⟨ho, ?_, ?_⟩, ⟨hh, ?_, ?_⟩, ?_, ?_, hfdl.symm, ?_, ?_⟩
  · unfold Frame.hl; rw [b3, hpos]; omega
  · unfold Frame.hl; rw [b3, hfdl]; omega
  · rw [hpos]; simp only [relabel, List.length_append, hlen, List.length_cons, List.length_nil]; omega
  · rw [hpos]
    have e1 : (relabel prv skid flags he routing f).take (10 + routing.length) = headWith prv skid flags he routing f := by
      unfold relabel
      rw [List.append_assoc, ← hlen, List.take_left]
    rw [e1]
    unfold byteAt relabel
    rw [List.append_assoc, List.getD_eq_getElem?_getD, List.getElem?_append_right (by omega), hlen, Nat.sub_self]
    simp only [List.cons_append, List.getElem?_cons_zero, Option.getD_some]
  · unfold Frame.pid; rw [hb 7 (by omega) (by omega), hb 8 (by omega) (by omega)]
  · unfold Frame.pt; rw [hb 9 (by omega) (by omega)]
  · unfold Frame.Encrypted at he' ⊢
    rw [b2]
    by_cases h0 : byteAt f 2 / 8 % 4 = 0
    · simp [h0] at he' ⊢; omega
    · simp [h0] at he' ⊢; omega
  · conv_rhs => unfold Frame.rest
    rw [hpos]
    unfold relabel
    rw [List.drop_append_of_le_length (by simp [hlen]), List.drop_of_length_le (by simp [hlen]), List.nil_append]

end Egts
