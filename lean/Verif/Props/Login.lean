import Verif.Props.Resend

/-! # Logins (C100) -/

namespace Egts

/-! ## The loops do not look into authorization data -/

theorem subStep_blank (env : Env) (pid : UInt16) (now : Int) (s : RecState) (x : RecordData) :
    subStep env pid now s x.blankAuth = subStep env pid now s x := by
  unfold RecordData.blankAuth
  split
  · rename_i d h
    unfold subStep
    rw [h]
  · rfl

theorem subLoop_blank (env : Env) (pid : UInt16) (now : Int) (l : List RecordData) (s : RecState) :
    subLoop env pid now s (l.map (·.blankAuth)) = subLoop env pid now s l := by
  induction l generalizing s with
  | nil => rfl
  | cons x l ih =>
    simp only [List.map_cons, subLoop, subStep_blank]
    cases subStep env pid now s x with
    | next s' => exact ih s'
    | received s' => rfl
    | crash => rfl

theorem recLoop_blank (env : Env) (pid : UInt16) (now : Int) (recs : List ServiceDataRecord) (effs : List Effect) (st : PktState) :
    recLoop env pid now effs st (recs.map (·.blankAuth)) = recLoop env pid now effs st recs := by
  induction recs generalizing effs st with
  | nil => rfl
  | cons r recs ih =>
    simp only [List.map_cons, recLoop]
    have h1 : r.blankAuth.obfe = r.obfe := rfl
    have h2 : r.blankAuth.objectIdentifier = r.objectIdentifier := rfl
    have h3 : r.blankAuth.recordDataSet = r.recordDataSet.map (·.blankAuth) := rfl
    have h4 : confirmation r.blankAuth = confirmation r := rfl
    have h5 : r.blankAuth.sourceServiceType = r.sourceServiceType := rfl
    simp only [h1, h2, h3, h4, h5, subLoop_blank]
    cases subLoop env pid now _ r.recordDataSet with
    | next s' => exact ih _ _
    | received s' => rfl
    | crash => rfl

/-! ## What is stored does not depend on them -/

theorem filterMap_noAuth {β : Type} (g : RecordData → Option β) (hg : ∀ x, x.isAuth = true → g x = none) (l : List RecordData) :
    (l.filter fun x => !x.isAuth).filterMap g = l.filterMap g := by
  induction l with
  | nil => rfl
  | cons x l ih =>
    cases hx : x.isAuth with
    | true => rw [List.filter_cons_of_neg (by simp [hx]), List.filterMap_cons_none (hg x hx), ih]
    | false => rw [List.filter_cons_of_pos (by simp [hx])]; simp only [List.filterMap_cons, ih]

theorem flatMap_noAuth {β : Type} (g : RecordData → List β) (hg : ∀ x, x.isAuth = true → g x = []) (l : List RecordData) :
    (l.filter fun x => !x.isAuth).flatMap g = l.flatMap g := by
  induction l with
  | nil => rfl
  | cons x l ih =>
    cases hx : x.isAuth with
    | true => rw [List.filter_cons_of_neg (by simp [hx]), List.flatMap_cons, hg x hx, ih, List.nil_append]
    | false => rw [List.filter_cons_of_pos (by simp [hx])]; simp only [List.flatMap_cons, ih]

theorem isAuth_data {x : RecordData} (h : x.isAuth = true) : ∃ d, x.subrecordData = some (.auth d) := by
  unfold RecordData.isAuth at h
  split at h
  · exact ⟨_, ‹_›⟩
  · cases h

theorem auth_pos {x : RecordData} (h : x.isAuth = true) : x.pos? = none := by
  obtain ⟨d, hd⟩ := isAuth_data h
  unfold RecordData.pos?; rw [hd]

theorem auth_extPos {x : RecordData} (h : x.isAuth = true) : x.extPos? = none := by
  obtain ⟨d, hd⟩ := isAuth_data h
  unfold RecordData.extPos?; rw [hd]

theorem auth_term {x : RecordData} (h : x.isAuth = true) : x.term? = none := by
  obtain ⟨d, hd⟩ := isAuth_data h
  unfold RecordData.term?; rw [hd]

theorem auth_counter {x : RecordData} (h : x.isAuth = true) : x.counter? = none := by
  obtain ⟨d, hd⟩ := isAuth_data h
  unfold RecordData.counter?; rw [hd]

theorem auth_analog {x : RecordData} (h : x.isAuth = true) : x.analog = [] := by
  obtain ⟨d, hd⟩ := isAuth_data h
  unfold RecordData.analog; rw [hd]

theorem auth_liquids {x : RecordData} (h : x.isAuth = true) : x.liquids = [] := by
  obtain ⟨d, hd⟩ := isAuth_data h
  unfold RecordData.liquids; rw [hd]

theorem auth_resp {x : RecordData} (h : x.isAuth = true) : x.isResp = false := by
  obtain ⟨d, hd⟩ := isAuth_data h
  unfold RecordData.isResp; rw [hd]

theorem withoutAuth_hasResp (r : ServiceDataRecord) : r.withoutAuth.hasResp = r.hasResp := by
  unfold ServiceDataRecord.hasResp ServiceDataRecord.withoutAuth
  simp only
  generalize r.recordDataSet = l
  induction l with
  | nil => rfl
  | cons x l ih =>
    cases hx : x.isAuth with
    | true => rw [List.filter_cons_of_neg (by simp [hx]), List.any_cons, auth_resp hx, Bool.false_or, ih]
    | false => rw [List.filter_cons_of_pos (by simp [hx]), List.any_cons, List.any_cons, ih]

theorem withoutAuth_idsIn (r : ServiceDataRecord) (l : List RecordData) :
    r.withoutAuth.idsIn (l.filter fun x => !x.isAuth) = r.idsIn l := by
  unfold ServiceDataRecord.idsIn
  rw [filterMap_noAuth _ (fun _ h => auth_term h)]
  rfl

theorem withoutAuth_ids (r : ServiceDataRecord) : r.withoutAuth.ids = r.ids := withoutAuth_idsIn r r.recordDataSet

theorem beforeResp_withoutAuth (recs : List ServiceDataRecord) : beforeResp (recs.map (·.withoutAuth)) = (beforeResp recs).map (·.withoutAuth) := by
  unfold beforeResp
  rw [List.takeWhile_map]
  congr 1
  simp only [Function.comp_def, withoutAuth_hasResp]

theorem ids_withoutAuth (recs : List ServiceDataRecord) : (recs.map (·.withoutAuth)).flatMap (·.ids) = recs.flatMap (·.ids) := by
  rw [List.flatMap_map]
  simp only [withoutAuth_ids]

theorem stored_withoutAuth (pid : UInt16) (now : Int) (c : UInt32) (recs : List ServiceDataRecord) :
    stored pid now c (recs.map (·.withoutAuth)) = stored pid now c recs := by
  unfold stored
  rw [List.zipIdx_map, List.filterMap_map]
  congr 1
  funext ⟨r, i⟩
  simp only [Function.comp_def, Prod.map_apply, id]
  rw [← List.map_take, ids_withoutAuth]
  unfold storedAs storedId lowCounter idCounters ServiceDataRecord.withoutAuth
  simp only
  rw [filterMap_noAuth _ (fun _ h => auth_pos h), filterMap_noAuth _ (fun _ h => auth_extPos h), filterMap_noAuth _ (fun _ h => auth_counter h),
    flatMap_noAuth _ (fun _ h => auth_analog h), flatMap_noAuth _ (fun _ h => auth_liquids h)]

theorem takeWhile_noAuth (l : List RecordData) :
    (l.filter fun x => !x.isAuth).takeWhile (fun x => !x.isResp) = (l.takeWhile fun x => !x.isResp).filter fun x => !x.isAuth := by
  induction l with
  | nil => rfl
  | cons x l ih =>
    cases hx : x.isAuth with
    | true =>
      rw [List.filter_cons_of_neg (by simp [hx]), List.takeWhile_cons_of_pos (by simp [auth_resp hx]), List.filter_cons_of_neg (by simp [hx]), ih]
    | false =>
      rw [List.filter_cons_of_pos (by simp [hx])]
      cases hr : x.isResp with
      | true => rw [List.takeWhile_cons_of_neg (by simp [hr]), List.takeWhile_cons_of_neg (by simp [hr])]; rfl
      | false =>
        rw [List.takeWhile_cons_of_pos (by simp [hr]), List.takeWhile_cons_of_pos (by simp [hr]), List.filter_cons_of_pos (by simp [hx]), ih]

/-- The identifiers in records, up to the first record response. -/
def idsOf (recs : List ServiceDataRecord) : List UInt32 :=
  (beforeResp recs).flatMap (·.ids) ++
    (match recs.find? (·.hasResp) with
     | none => []
     | some r => r.idsIn (r.recordDataSet.takeWhile (fun x => !x.isResp)))

theorem packetIds_eq (env : Env) (pkt : Slice) : packetIds env pkt = match accepted env pkt with | none => [] | some x => idsOf x.2 := by
  unfold packetIds idsOf
  cases accepted env pkt <;> rfl

theorem idsOf_withoutAuth (recs : List ServiceDataRecord) : idsOf (recs.map (·.withoutAuth)) = idsOf recs := by
  unfold idsOf
  rw [beforeResp_withoutAuth, ids_withoutAuth]
  congr 1
  rw [List.find?_map]
  simp only [Function.comp_def, withoutAuth_hasResp]
  cases recs.find? (·.hasResp) with
  | none => rfl
  | some r =>
    simp only [Option.map_some]
    rw [show r.withoutAuth.recordDataSet = r.recordDataSet.filter fun x => !x.isAuth from rfl, takeWhile_noAuth, withoutAuth_idsIn]

theorem same_packetIds {env : Env} {f g : Bytes} (h : SameButAuth env f g) : packetIds env ⟨f, []⟩ = packetIds env ⟨g, []⟩ := by
  rw [packetIds_eq, packetIds_eq]
  unfold SameButAuth at h
  cases hf : accepted env ⟨f, []⟩ <;> cases hg : accepted env ⟨g, []⟩ <;> rw [hf, hg] at h <;>
    simp only [Option.map_some, Option.map_none, Option.some.injEq, Prod.mk.injEq, reduceCtorEq] at h
  simp only
  rw [← idsOf_withoutAuth, h.2, idsOf_withoutAuth]

theorem packetIds_honest (env : Env) {f : Bytes} (h : Frame.Honest f) (sp : Bytes) : packetIds env ⟨f, sp⟩ = packetIds env ⟨f, []⟩ := by
  rw [packetIds_eq, packetIds_eq, accepted_honest env h]

theorem same_idsBefore {env : Env} (ce : ConnEnv) {frames frames' : List Bytes} (h : List.Forall₂ (SameButAuth env) frames frames')
    (hf : ∀ f ∈ frames, Frame.Honest f) (hf' : ∀ f ∈ frames', Frame.Honest f) (n : Nat) :
    idsBefore env ce frames n = idsBefore env ce frames' n := by
  unfold idsBefore
  have h := List.forall₂_take n h
  have hf := fun f hm => hf f (List.mem_of_mem_take (i := n) hm)
  have hf' := fun f hm => hf' f (List.mem_of_mem_take (i := n) hm)
  generalize frames.take n = a at h hf
  generalize frames'.take n = b at h hf'
  generalize 0 = k
  induction h generalizing k with
  | nil => rfl
  | @cons x y _ _ hx _ ih =>
    simp only [List.zipIdx_cons, List.flatMap_cons]
    rw [ih (fun f hm => hf f (by simp [hm])) (fun f hm => hf' f (by simp [hm])), packetIds_honest env (hf x (by simp)),
      packetIds_honest env (hf' y (by simp)), same_packetIds hx]

/-! ## C100 -/

/-- The generator's packet with a position and this object identifier. -/
def claim (id : UInt32) : GenArgs := { genExample with oid := id.toNat }

/-- Full statement of C100 (not provable): no position is stored unless a login with valid authorization data has come before it on the
connection. For every identifier there is a packet with just one position which is stored under that identifier when it is all that
ever comes on a connection; and it is acknowledged. -/
theorem C100_false (env : Env) (id : UInt32) : ∃ f, WellFramed f ∧ ∀ ce e, ∃ n w,
    saves (handleConn env ce f e) = [n] ∧ n.client = id ∧ writes (handleConn env ce f e) = [w] := by
  have hr := gen_report env (claim id) (by show (0 : Rat) ≤ 45 ∧ (45 : Rat) ≤ 90; decide) (by show (0 : Rat) ≤ 60 ∧ (60 : Rat) ≤ 180; decide)
  obtain ⟨f, e1, _⟩ := C06_application_exact env none (genPackage (claim id)) {} [] _ _ rfl hr.wf rfl (genSds env (claim id))
  have hf : List.Forall₂ (fun x f => (x.1.encode env none).2 = .ok f) [(genPackage (claim id), [genRecord (claim id)])] [f] := .cons e1 .nil
  have hrs : ∀ x ∈ [(genPackage (claim id), [genRecord (claim id)])], Report env x.1 x.2 := by
    intro x hx
    rw [List.mem_singleton] at hx
    subst hx
    exact hr
  refine ⟨f, (report_accepted hr e1 []).1, fun ce e => ?_⟩
  obtain ⟨h1, answers, h2, h3⟩ := C82_totals env ce _ _ hrs hf e
  simp only [List.flatten_cons, List.flatten_nil, List.append_nil] at h1 h3
  have hid : intToU32 (claim id).oid = id := by
    show UInt32.ofNat (((id.toNat : Int) % 4294967296).toNat) = id
    have := UInt32.toNat_lt id
    rw [show ((id.toNat : Int) % 4294967296).toNat = id.toNat from by omega]
    exact UInt32.ofNat_toNat
  obtain ⟨due, hdue, hcl⟩ : ∃ due, dueRecords ce.clock [(genPackage (claim id), [genRecord (claim id)])] = [due] ∧ due.client = intToU32 (claim id).oid :=
    ⟨_, rfl, rfl⟩
  rw [hdue] at h1
  generalize saves (handleConn env ce f e) = sv at h1 ⊢
  cases h1 with
  | @cons _ n _ _ hn h1 =>
    cases h1
    cases h2 with
    | cons ha h2 =>
      cases h2
      obtain ⟨ack, _, rfl⟩ := ha
      refine ⟨n, ack, rfl, ?_, ?_⟩
      · rw [hn.2.2]
        exact hcl.trans hid
      · rw [h3]
        rfl

/-- Whatever the authorization data in an accepted packet, the receiver does the same, and goes on in the same way. -/
theorem C100_credentials_ignored (env : Env) (now : Int) (client : UInt32) (pkt pkt' : Slice) (p p' : Package) (recs recs' : List ServiceDataRecord)
    (h : Accepts env pkt p recs) (h' : Accepts env pkt' p' recs') (hp : p.packetIdentifier = p'.packetIdentifier)
    (hr : recs.map (·.blankAuth) = recs'.map (·.blankAuth)) : handlePacket env now client pkt = handlePacket env now client pkt' := by
  unfold handlePacket
  rw [h.1, h'.1]
  simp only [h.2.1, h'.2.1, if_true, h.2.2, h'.2.2]
  rw [← recLoop_blank, hr, recLoop_blank, hp]

/-- Logins, right or wrong, change nothing about what is stored: if packets on two connections are the same, or differ only in that authorization
data are changed, added or left out, then just the same is stored for both. -/
theorem C100_no_influence (env : Env) (ce : ConnEnv) (frames frames' : List Bytes) (hf : ∀ f ∈ frames, WellFramed f ∧ Frame.Honest f)
    (hf' : ∀ f ∈ frames', WellFramed f ∧ Frame.Honest f) (h : List.Forall₂ (SameButAuth env) frames frames') (e e' : End) :
    saves (handleConn env ce frames.flatten e) = saves (handleConn env ce frames'.flatten e') := by
  have hn : ∀ l : List Bytes, (∀ f ∈ l, WellFramed f ∧ Frame.Honest f) → NoPanic env ce l := fun l hl i f hi =>
    C11_no_panic_partial env none {} _ (.inl (hl f (List.mem_of_getElem? hi)).2)
  rw [saves_end env ce frames (fun f hm => (hf f hm).1) (hn _ hf), saves_end env ce frames' (fun f hm => (hf' f hm).1) (hn _ hf'),
    C49_all_saved env ce frames (fun f hm => (hf f hm).1) (hn _ hf), C49_all_saved env ce frames' (fun f hm => (hf' f hm).1) (hn _ hf')]
  have hids := same_idsBefore ce h (fun f hm => (hf f hm).2) (fun f hm => (hf' f hm).2)
  generalize idsBefore env ce frames = a at hids
  generalize idsBefore env ce frames' = b at hids
  generalize 0 = k
  induction h generalizing k with
  | nil => rfl
  | @cons x y _ _ hx _ ih =>
    simp only [List.zipIdx_cons, List.flatMap_cons]
    rw [ih (fun f hm => hf f (by simp [hm])) (fun f hm => hf' f (by simp [hm])), accepted_honest env (hf x (by simp)).2,
      accepted_honest env (hf' y (by simp)).2, hids]
    congr 1
    unfold SameButAuth at hx
    cases h1 : accepted env ⟨x, []⟩ <;> cases h2 : accepted env ⟨y, []⟩ <;> rw [h1, h2] at hx <;>
      simp only [Option.map_some, Option.map_none, Option.some.injEq, Prod.mk.injEq, reduceCtorEq] at hx
    simp only
    rw [hx.1, ← stored_withoutAuth, ← beforeResp_withoutAuth, hx.2, beforeResp_withoutAuth, stored_withoutAuth]

/-- What there is instead: a position is stored only under an identifier that has been received on the same connection, with the same packet or
before; or under 0. Missing: that the sender is entitled to that identifier (`C100_false`). -/
theorem C100_claimed_partial (env : Env) (ce : ConnEnv) (frames : List Bytes) (hf : ∀ f ∈ frames, WellFramed f) (hn : NoPanic env ce frames) (e : End) :
    ∀ n ∈ saves (handleConn env ce frames.flatten e), n.client = 0 ∨
      ∃ i f pid recs r, frames[i]? = some f ∧ accepted env ⟨f, ce.spare i⟩ = some (pid, recs) ∧ r ∈ recs ∧ n.client ∈ r.ids := by
  intro n hmem
  rw [saves_end env ce frames hf hn] at hmem
  have h1 : n.client ∈ (saves (handleConn env ce frames.flatten .blocked)).map (·.client) := List.mem_map_of_mem hmem
  rw [C49_attribution env ce frames hf hn, List.mem_flatMap] at h1
  obtain ⟨⟨f, i⟩, hx, h1⟩ := h1
  simp only at h1
  have hfi := List.mem_zipIdx_iff_getElem?.mp hx
  simp only at hfi
  cases ha : accepted env ⟨f, ce.spare i⟩ with
  | none => rw [ha] at h1; cases h1
  | some x =>
    rw [ha] at h1
    simp only [List.mem_filterMap] at h1
    obtain ⟨⟨r, k⟩, _, h2⟩ := h1
    simp only at h2
    split at h2
    · rename_i hp
      injection h2 with h2
      rw [← h2]
      unfold lastOr
      cases hl : (idsBefore env ce frames i ++ (x.2.take (k + 1)).flatMap (·.ids)).getLast? with
      | none => exact .inl rfl
      | some id =>
        right
        simp only [Option.getD_some]
        rcases List.mem_append.mp (List.mem_of_getLast? hl) with hm | hm
        · unfold idsBefore at hm
          obtain ⟨⟨g, j⟩, hg, hm⟩ := List.mem_flatMap.mp hm
          have hgj := List.mem_zipIdx_iff_getElem?.mp hg
          simp only at hgj hm
          have hgj' : frames[j]? = some g := by
            rw [List.getElem?_take] at hgj
            split at hgj
            · exact hgj
            · cases hgj
          rw [packetIds_eq] at hm
          cases hb : accepted env ⟨g, ce.spare j⟩ with
          | none => rw [hb] at hm; cases hm
          | some y =>
            rw [hb] at hm
            simp only at hm
            unfold idsOf at hm
            rcases List.mem_append.mp hm with hm | hm
            · obtain ⟨r', hr', hm⟩ := List.mem_flatMap.mp hm
              exact ⟨j, g, y.1, y.2, r', hgj', hb, (List.takeWhile_sublist _).subset hr', hm⟩
            · cases hfnd : y.2.find? (·.hasResp) with
              | none => rw [hfnd] at hm; cases hm
              | some r' =>
                rw [hfnd] at hm
                refine ⟨j, g, y.1, y.2, r', hgj', hb, List.mem_of_find?_eq_some hfnd, ?_⟩
                simp only at hm
                unfold ServiceDataRecord.ids
                unfold ServiceDataRecord.idsIn at hm ⊢
                rcases List.mem_append.mp hm with hm | hm
                · exact List.mem_append_left _ hm
                · refine List.mem_append_right _ ?_
                  obtain ⟨d, hd, rfl⟩ := List.mem_map.mp hm
                  obtain ⟨z, hz, hzd⟩ := List.mem_filterMap.mp hd
                  exact List.mem_map.mpr ⟨d, List.mem_filterMap.mpr ⟨z, (List.takeWhile_sublist _).subset hz, hzd⟩, rfl⟩
        · obtain ⟨r', hr', hm⟩ := List.mem_flatMap.mp hm
          exact ⟨i, f, x.1, x.2, r', hfi, ha, List.mem_of_mem_take hr', hm⟩
    · cases h2

/-! ## Two logins -/

def loginA : Bytes := [1, 0, 0, 11, 0, 14, 0, 5, 0, 1, 252, 7, 0, 7, 0, 0, 1, 1, 7, 4, 0, 97, 0, 98, 0, 28, 32]
def loginB : Bytes := [1, 0, 0, 11, 0, 17, 0, 5, 0, 1, 229, 10, 0, 7, 0, 0, 1, 1, 7, 7, 0, 114, 111, 111, 116, 0, 120, 0, 10, 100]
def authSub (len : UInt16) (d : SrAuthInfo) : RecordData := { subrecordType := 7, subrecordLength := len, subrecordData := some (.auth d) }
def loginRecsA : List ServiceDataRecord := [Ex.recN 7 7 1 [authSub 4 { userName := go!"a", userPassword := go!"b" }]]
def loginRecsB : List ServiceDataRecord := [Ex.recN 10 7 1 [authSub 7 { userName := go!"root", userPassword := go!"x" }]]

set_option maxRecDepth 40000 in
theorem loginA_decode (env : Env) : Package.decode env none {} ⟨loginA, []⟩ = .ret (Ex.pkg 14 252 8220 loginRecsA) 0 none := by
  with_unfolding_all rfl

set_option maxRecDepth 40000 in
theorem loginB_decode (env : Env) : Package.decode env none {} ⟨loginB, []⟩ = .ret (Ex.pkg 17 229 25610 loginRecsB) 0 none := by
  with_unfolding_all rfl

/-- User root with password x is answered as user a with password b: with an acknowledgement and the result 0. -/
example (env : Env) (now : Int) (c : UInt32) : handlePacket env now c ⟨loginA, []⟩ = handlePacket env now c ⟨loginB, []⟩ ∧
    (writes (handlePacket env now c ⟨loginA, []⟩).effs).length = 2 := by
  have ha : Accepts env ⟨loginA, []⟩ (Ex.pkg 14 252 8220 loginRecsA) loginRecsA := ⟨loginA_decode env, rfl, rfl⟩
  refine ⟨C100_credentials_ignored env now c _ _ _ _ _ _ ha ⟨loginB_decode env, rfl, rfl⟩ rfl (by decide), ?_⟩
  obtain ⟨ack, _, h⟩ := C44_acknowledged env now c _ _ _ ha (by decide)
  rw [h]
  rfl

/-- With either of them before other packets, the same is stored. -/
example (env : Env) (ce : ConnEnv) : saves (handleConn env ce (loginA ++ Ex.good) .eof) = saves (handleConn env ce (loginB ++ Ex.good) .eof) ∧
    SameButAuth env loginA loginB := by
  have ha := accepted_of (env := env) ⟨loginA_decode env, rfl, rfl⟩
  have hb := accepted_of (env := env) ⟨loginB_decode env, rfl, rfl⟩
  have h : SameButAuth env loginA loginB := by
    unfold SameButAuth
    rw [ha, hb]
    decide
  have := C100_no_influence env ce [loginA, Ex.good] [loginB, Ex.good] (by decide) (by decide) (.cons h (.cons rfl .nil)) .eof .eof
  exact ⟨by simpa using this, h⟩

end Egts
