import Verif.Proofs.Conn

/-! # Lemmas: the client identifier over a whole connection -/

namespace Egts

theorem byteAt_front {a : Bytes} (b : Bytes) {i : Nat} (h : i < a.length) : byteAt (a ++ b) i = byteAt a i := by
  unfold byteAt
  rw [List.getD_eq_getElem?_getD, List.getD_eq_getElem?_getD, List.getElem?_append_left h]

theorem writes_append (a b : List Effect) : writes (a ++ b) = writes a ++ writes b := List.filterMap_append
theorem saves_append (a b : List Effect) : saves (a ++ b) = saves a ++ saves b := List.filterMap_append
theorem writes_saves (l : List NavRecord) : writes (l.map .save) = [] := by
  unfold writes
  rw [List.filterMap_map]
  exact List.filterMap_eq_nil_iff.mpr (fun _ _ => rfl)
theorem saves_saves (l : List NavRecord) : saves (l.map .save) = l := by
  unfold saves
  rw [List.filterMap_map]
  exact List.filterMap_some

theorem accepted_of {env : Env} {pkt : Slice} {p : Package} {recs : List ServiceDataRecord} (h : Accepts env pkt p recs) :
    accepted env pkt = some (p.packetIdentifier, recs) := by
  obtain ⟨h1, h2, h3⟩ := h
  unfold accepted
  rw [h1]
  simp only [h2, h3, if_true]

theorem accepted_none {env : Env} {pkt : Slice} (h : ∀ p recs, ¬ Accepts env pkt p recs) : accepted env pkt = none := by
  unfold accepted
  split
  · rename_i p _ hd
    split
    · rename_i hp
      split
      · rename_i recs hs
        have hc := ((decode_frame env none {} pkt).2 _ _ _ hd).1.mp rfl
        subst hc
        exact absurd ⟨hd, hp, hs⟩ (h p recs)
      · rfl
    · rfl
  · rfl

theorem accepted_iff (env : Env) (pkt : Slice) (pid : UInt16) (recs : List ServiceDataRecord) :
    accepted env pkt = some (pid, recs) ↔ ∃ p, Accepts env pkt p recs ∧ p.packetIdentifier = pid := by
  constructor
  · intro h
    by_cases hx : ∃ p recs, Accepts env pkt p recs
    · obtain ⟨p, recs', hp⟩ := hx
      rw [accepted_of hp] at h
      simp only [Option.some.injEq, Prod.mk.injEq] at h
      obtain ⟨h1, rfl⟩ := h
      exact ⟨p, hp, h1⟩
    · rw [accepted_none (fun p recs hp => hx ⟨p, recs, hp⟩)] at h
      cases h
  · rintro ⟨p, hp, rfl⟩
    exact accepted_of hp

theorem find_beforeResp {recs : List ServiceDataRecord} {r : ServiceDataRecord} (h : beforeResp recs ++ [r] <+: recs) :
    recs.find? (·.hasResp) = some r := by
  induction recs with
  | nil => obtain ⟨t, ht⟩ := h; simp [beforeResp] at ht
  | cons a recs ih =>
    unfold beforeResp at h ih
    cases ha : a.hasResp with
    | true =>
      rw [List.takeWhile_cons_of_neg (by simp [ha])] at h
      obtain ⟨t, ht⟩ := h
      simp only [List.nil_append, List.cons_append, List.cons.injEq] at ht
      rw [List.find?_cons_of_pos (by rw [ha])]
      rw [ht.1]
    | false =>
      rw [List.takeWhile_cons_of_pos (by simp [ha])] at h
      rw [List.find?_cons_of_neg (by simp [ha])]
      apply ih
      obtain ⟨t, ht⟩ := h
      simp only [List.cons_append, List.cons.injEq, true_and] at ht
      exact ⟨t, ht⟩

theorem beforeResp_all {recs : List ServiceDataRecord} (h : ∀ r ∈ recs, r.hasResp = false) :
    beforeResp recs = recs ∧ recs.find? (·.hasResp) = none := by
  constructor
  · unfold beforeResp
    have := List.takeWhile_append_of_pos (p := fun r : ServiceDataRecord => !r.hasResp) (l₁ := recs) (l₂ := []) (fun r hr => by simp [h r hr])
    simpa using this
  · rw [List.find?_eq_none]
    intro r hr
    simp [h r hr]

theorem hasResp_cases (recs : List ServiceDataRecord) : (∀ r ∈ recs, r.hasResp = false) ∨ ∃ r ∈ recs, r.hasResp = true := by
  by_cases h : ∃ r ∈ recs, r.hasResp = true
  · exact .inr h
  · left
    intro r hr
    cases hh : r.hasResp with
    | false => rfl
    | true => exact absurd ⟨r, hr, hh⟩ h

/-- The client after a packet. -/
theorem handlePacket_ids (env : Env) (now : Int) (c : UInt32) (pkt : Slice) (h : Package.decode env none {} pkt ≠ .panic) :
    (handlePacket env now c pkt).client = some (lastOr (packetIds env pkt) c) := by
  unfold packetIds
  rcases packet_cases env pkt with h | ⟨p, code, e, h⟩ | ⟨p, h, hp⟩ | ⟨p, recs, h⟩
  · contradiction
  · obtain ⟨r, _, h2⟩ := handlePacket_rejected env now c h
    rw [h2, accepted_none (by rintro p' recs ⟨h', _⟩; rw [h] at h'; cases h')]
    rfl
  · rw [handlePacket_response env now c h hp, accepted_none (by rintro p' recs ⟨h', h1, _⟩; rw [h] at h'; cases h'; exact hp h1)]
    rfl
  · rw [accepted_of h]
    simp only
    rcases hasResp_cases recs with hr | hr
    · obtain ⟨ack, _, h2⟩ := handlePacket_app env now c h hr
      rw [h2, (beforeResp_all hr).1, (beforeResp_all hr).2]
      simp
    · obtain ⟨r, subs, h1, h2, h3⟩ := handlePacket_appResp env now c h hr
      rw [h3, find_beforeResp h1, h2]

/-- What is saved for a packet. -/
theorem handlePacket_saves (env : Env) (now : Int) (c : UInt32) (pkt : Slice) :
    saves (handlePacket env now c pkt).effs =
      match accepted env pkt with
      | some (pid, recs) => stored pid now c (beforeResp recs)
      | none => [] := by
  have hs : ∀ l : List NavRecord, saves (l.map .save) = l := by
    intro l
    unfold saves
    rw [List.filterMap_map]
    exact List.filterMap_some
  rcases packet_cases env pkt with h | ⟨p, code, e, h⟩ | ⟨p, h, hp⟩ | ⟨p, recs, h⟩
  · rw [handlePacket_panic env now c h, accepted_none (by rintro p' recs ⟨h', _⟩; rw [h] at h'; cases h')]
    rfl
  · obtain ⟨r, _, h2⟩ := handlePacket_rejected env now c h
    rw [h2, accepted_none (by rintro p' recs ⟨h', _⟩; rw [h] at h'; cases h')]
    rfl
  · rw [handlePacket_response env now c h hp, accepted_none (by rintro p' recs ⟨h', h1, _⟩; rw [h] at h'; cases h'; exact hp h1)]
    rfl
  · rw [accepted_of h]
    simp only
    rcases hasResp_cases recs with hr | hr
    · obtain ⟨ack, _, h2⟩ := handlePacket_app env now c h hr
      rw [h2, (beforeResp_all hr).1]
      have := hs (stored p.packetIdentifier now c recs)
      unfold saves at *
      rw [List.filterMap_append, List.filterMap_append, this]
      split <;> simp
    · obtain ⟨r, subs, h1, h2, h3⟩ := handlePacket_appResp env now c h hr
      rw [h3]
      exact hs _

theorem lastOr_lastOr (a b : List UInt32) (c : UInt32) : lastOr b (lastOr a c) = lastOr (a ++ b) c := by
  rw [lastOr_append]

theorem posList_iff (r : ServiceDataRecord) : r.hasPos = (r.recordDataSet.filterMap (·.pos?)).getLast?.isSome := by
  unfold ServiceDataRecord.hasPos
  induction r.recordDataSet with
  | nil => rfl
  | cons a l ih =>
    rw [List.any_cons, ih, List.filterMap_cons]
    cases a.pos? with
    | none => simp
    | some d => simp [List.getLast?_cons]

theorem stored_length (pid : UInt16) (now : Int) (c : UInt32) (recs : List ServiceDataRecord) :
    (stored pid now c recs).length = (recs.filter (·.hasPos)).length := by
  induction recs generalizing c with
  | nil => rfl
  | cons r recs ih =>
    rw [stored_cons, List.filter_cons, posList_iff r]
    rw [List.length_append, ih]
    unfold saved1
    cases (r.recordDataSet.filterMap (·.pos?)).getLast? with
    | none => simp
    | some d => simp; omega

theorem stored_packetIDs (pid : UInt16) (now : Int) (c : UInt32) (recs : List ServiceDataRecord) :
    (stored pid now c recs).map (·.packetID) = (recs.filter (·.hasPos)).map (fun r => storedId pid r.recordDataSet) := by
  induction recs generalizing c with
  | nil => rfl
  | cons r recs ih =>
    rw [stored_cons, List.filter_cons, posList_iff r, List.map_append, ih]
    unfold saved1
    cases (r.recordDataSet.filterMap (·.pos?)).getLast? with
    | none => rfl
    | some d => rfl

theorem stored_positions (pid : UInt16) (now : Int) (c : UInt32) (recs : List ServiceDataRecord)
    (h1 : ∀ r ∈ recs, (r.recordDataSet.filterMap (·.pos?)).length ≤ 1) :
    (stored pid now c recs).map (fun n => (n.navigationTimestamp, n.latitude, n.longitude, n.speed, n.course)) =
      (recs.flatMap (fun r => r.recordDataSet.filterMap (·.pos?))).map
        (fun d => (GoTime.unix d.navigationTime, d.latitude, d.longitude, d.speed, d.direction)) := by
  induction recs generalizing c with
  | nil => rfl
  | cons r recs ih =>
    rw [stored_cons, List.flatMap_cons, List.map_append, List.map_append, ih _ (fun x hx => h1 x (List.mem_cons_of_mem _ hx))]
    congr 1
    have := h1 r List.mem_cons_self
    unfold saved1
    generalize r.recordDataSet.filterMap (·.pos?) = l at *
    rcases l with _ | ⟨d, _ | ⟨d', l⟩⟩
    · rfl
    · rfl
    · simp at this

theorem take_beforeResp (recs : List ServiceDataRecord) {k : Nat} (h : k < (beforeResp recs).length) :
    (beforeResp recs).take (k + 1) = recs.take (k + 1) := by
  obtain ⟨t, ht⟩ := List.takeWhile_prefix (l := recs) (fun r => !r.hasResp)
  have : recs = beforeResp recs ++ t := ht.symm
  conv_rhs => rw [this]
  rw [List.take_append_of_le_length (by omega)]

theorem stored_clients (pid : UInt16) (now : Int) (ids : List UInt32) (recs : List ServiceDataRecord) :
    (stored pid now (lastOr ids 0) (beforeResp recs)).map (·.client) =
      (beforeResp recs).zipIdx.filterMap (fun (r, k) =>
        if r.hasPos then some (lastOr (ids ++ (recs.take (k + 1)).flatMap (·.ids)) 0) else none) := by
  unfold stored
  rw [List.map_filterMap]
  apply List.filterMap_congr
  rintro ⟨r, k⟩ hm
  have hk : k < (beforeResp recs).length := by
    have := List.mem_zipIdx hm
    omega
  simp only [posList_iff r, take_beforeResp recs hk]
  cases (r.recordDataSet.filterMap (·.pos?)).getLast? with
  | none => rfl
  | some d =>
    simp only [Option.map_some, Option.isSome_some, if_true, storedAs, lastOr_append]

/-- Closed form of `processAll`. -/
theorem processAll_closed (env : Env) (ce : ConnEnv) (frames : List Bytes) (i : Nat) (c : UInt32)
    (h : ∀ j f, frames[j]? = some f → Package.decode env none {} ⟨f, ce.spare (i + j)⟩ ≠ .panic) :
    (processAll env ce i c frames).effs =
      (frames.zipIdx).flatMap (fun (f, j) => (handlePacket env (ce.clock (i + j))
        (lastOr ((frames.take j).zipIdx.flatMap fun (g, k) => packetIds env ⟨g, ce.spare (i + k)⟩) c) ⟨f, ce.spare (i + j)⟩).effs) ∧
    (processAll env ce i c frames).client =
      some (lastOr (frames.zipIdx.flatMap fun (g, k) => packetIds env ⟨g, ce.spare (i + k)⟩) c) := by
  induction frames generalizing i c with
  | nil => exact ⟨rfl, rfl⟩
  | cons f fs ih =>
    have h0 := handlePacket_ids env (ce.clock i) c ⟨f, ce.spare i⟩ (h 0 f rfl)
    obtain ⟨e1, e2⟩ := ih (i + 1) (lastOr (packetIds env ⟨f, ce.spare i⟩) c) (fun j g hg => by
      have := h (j + 1) g hg
      rw [show i + 1 + j = i + (j + 1) by omega]; exact this)
    unfold processAll
    simp only
    split
    · rename_i hn; rw [h0] at hn; cases hn
    · rename_i c' hc
      rw [h0] at hc
      cases hc
      simp only [e1, e2]
      have hz : ∀ l : List Bytes, ∀ β (g : Bytes × Nat → List β), (l.zipIdx 1).flatMap g = l.zipIdx.flatMap (fun x => g (x.1, x.2 + 1)) := by
        intro l β g
        rw [List.zipIdx_succ]
        rw [List.flatMap_map]
      constructor
      · rw [List.zipIdx_cons, List.flatMap_cons, hz]
        simp only [List.take_zero, List.zipIdx_nil, List.flatMap_nil, Nat.add_zero, List.take_succ_cons, List.zipIdx_cons, List.flatMap_cons, hz,
          lastOr_nil, lastOr_lastOr]
        simp only [Nat.add_assoc, Nat.add_comm 1]
      · rw [List.zipIdx_cons, List.flatMap_cons, hz, lastOr_lastOr]
        simp only [Nat.add_assoc, Nat.add_comm 1, Nat.add_zero]

theorem processAll_effs (env : Env) (ce : ConnEnv) (frames : List Bytes) (h : NoPanic env ce frames) :
    (processAll env ce 0 0 frames).effs =
      frames.zipIdx.flatMap (fun (f, i) => (handlePacket env (ce.clock i) (lastOr (idsBefore env ce frames i) 0) ⟨f, ce.spare i⟩).effs) ∧
    (processAll env ce 0 0 frames).client = some (lastOr (idsBefore env ce frames frames.length) 0) := by
  have := processAll_closed env ce frames 0 0 (fun j f hf => by rw [Nat.zero_add]; exact h j f hf)
  simp only [Nat.zero_add] at this
  unfold idsBefore
  rw [List.take_length]
  exact this

end Egts
