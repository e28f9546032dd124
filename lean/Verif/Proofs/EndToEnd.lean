import Verif.Spec.EndToEnd
import Verif.Props.Connectors

/-! # Lemmas on the way from a device to the storages -/

namespace Egts

/-! ## Subrecords as read back -/

theorem back_pos {env : Env} {a : SrPosData} {y : SubData} (h : (SubData.pos a).ReadBack env y) (hc : (SubData.pos a).Carried)
    (hw : (SubData.pos a).WF env) :
    ∃ b, y = .pos b ∧ |b.latitude - a.latitude| ≤ 22 / 1000000000 ∧ |b.longitude - a.longitude| ≤ 44 / 1000000000 ∧
      b.navigationTime = a.navigationTime ∧ b.speed = a.speed ∧ b.direction = a.direction := by
  have h := sub_sound hw hc h
  cases y with
  | pos b =>
    obtain ⟨h1, h2, _, _, h3⟩ := h
    exact ⟨b, rfl, h1, h2, by rw [h3], by rw [h3], by rw [h3]⟩
  | _ => exact h.elim

/-- What matters to the receiver in a subrecord is read back. -/
structure SubLike (x y : RecordData) : Prop where
  pos : Option.Rel (fun a b : SrPosData => |b.latitude - a.latitude| ≤ 22 / 1000000000 ∧ |b.longitude - a.longitude| ≤ 44 / 1000000000 ∧
      b.navigationTime = a.navigationTime ∧ b.speed = a.speed ∧ b.direction = a.direction) x.pos? y.pos?
  ext : y.extPos? = x.extPos?
  term : y.term?.map (·.terminalIdentifier) = x.term?.map (·.terminalIdentifier)
  counter : y.counter? = x.counter?
  resp : y.isResp = x.isResp
  login : y.isLogin = x.isLogin
  analog : y.analog = x.analog
  liquids : y.liquids = x.liquids

theorem back_sub {env : Env} {x y : RecordData} (h : RecordData.ReadBack env x y) (hw : x.WF env)
    (hc : ∀ d, x.subrecordData = some d → d.Carried) : SubLike x y := by
  obtain ⟨dx, dy, enc, hx, hy, hr, _⟩ := h
  obtain ⟨d, _, hd, hwf, _⟩ := hw
  rw [hx] at hd
  cases hd
  have hc := hc dx hx
  cases dx with
  | pos a =>
    obtain ⟨b, rfl, e⟩ := back_pos hr hc hwf
    constructor <;> simp only [RecordData.pos?, RecordData.extPos?, RecordData.term?, RecordData.counter?, RecordData.isResp, RecordData.isLogin,
      RecordData.analog, RecordData.liquids, hx, hy]
    · exact .some e
  | adSens a =>
    obtain ⟨hm, ho⟩ := hc
    have e : dy = .adSens a := by rw [show dy = .adSens (a.readBack {}) from hr, readBack_mirror a {} hwf hm, ho]
    subst e
    constructor <;> simp only [RecordData.pos?, RecordData.extPos?, RecordData.term?, RecordData.counter?, RecordData.isResp, RecordData.isLogin,
      RecordData.analog, RecordData.liquids, hx, hy]
    · exact .none
  | counters a =>
    have e : dy = .counters (a.readBack {}) := hr
    subst e
    constructor <;> simp only [RecordData.pos?, RecordData.extPos?, RecordData.term?, RecordData.counter?, RecordData.isResp, RecordData.isLogin,
      RecordData.analog, RecordData.liquids, hx, hy]
    · exact .none
  | extPos a =>
    cases dy <;> try exact (hr : False).elim
    rename_i b
    have e : b = a := (show b = a.onto {} from hr).trans hc
    subst e
    constructor <;> simp only [RecordData.pos?, RecordData.extPos?, RecordData.term?, RecordData.counter?, RecordData.isResp, RecordData.isLogin,
      RecordData.analog, RecordData.liquids, hx, hy]
    · exact .none
  | term a =>
    cases dy <;> try exact (hr : False).elim
    rename_i b
    have e : b = a.onto {} := hr
    subst e
    constructor <;> simp only [RecordData.pos?, RecordData.extPos?, RecordData.term?, RecordData.counter?, RecordData.isResp, RecordData.isLogin,
      RecordData.analog, RecordData.liquids, hx, hy]
    · exact .none
    · rfl
  | _ a =>
    cases dy <;> try exact (hr : False).elim
    rename_i b
    have e : b = a := hr
    subst e
    constructor <;> simp only [RecordData.pos?, RecordData.extPos?, RecordData.term?, RecordData.counter?, RecordData.isResp, RecordData.isLogin,
      RecordData.analog, RecordData.liquids, hx, hy]
    · exact .none

/-! ## Records as read back -/

theorem any_like {α : Type} {R : α → α → Prop} {f : α → Bool} (hf : ∀ x y, R x y → f y = f x) {a b : List α}
    (h : List.Forall₂ R a b) : b.any f = a.any f := by
  induction h with
  | nil => rfl
  | cons hx _ ih => rw [List.any_cons, List.any_cons, ih, hf _ _ hx]

theorem filterMap_like {α β : Type} {R : α → α → Prop} {f : α → Option β} (hf : ∀ x y, R x y → f y = f x) {a b : List α}
    (h : List.Forall₂ R a b) : b.filterMap f = a.filterMap f := by
  induction h with
  | nil => rfl
  | cons hx _ ih => rw [List.filterMap_cons, List.filterMap_cons, ih, hf _ _ hx]

theorem flatMap_like {α β : Type} {R : α → α → Prop} {f : α → List β} (hf : ∀ x y, R x y → f y = f x) {a b : List α}
    (h : List.Forall₂ R a b) : b.flatMap f = a.flatMap f := by
  induction h with
  | nil => rfl
  | cons hx _ ih => rw [List.flatMap_cons, List.flatMap_cons, ih, hf _ _ hx]

theorem map_like {α β : Type} {R : α → α → Prop} {f : α → β} (hf : ∀ x y, R x y → f y = f x) {a b : List α}
    (h : List.Forall₂ R a b) : b.map f = a.map f := by
  induction h with
  | nil => rfl
  | cons hx _ ih => rw [List.map_cons, List.map_cons, ih, hf _ _ hx]

theorem forall₂_filterMap_opt {α β γ δ : Type} {R : α → β → Prop} {S : γ → δ → Prop} {f : α → Option γ} {g : β → Option δ}
    (hf : ∀ x y, R x y → Option.Rel S (f x) (g y)) {a : List α} {b : List β} (h : List.Forall₂ R a b) :
    List.Forall₂ S (a.filterMap f) (b.filterMap g) := by
  induction h with
  | nil => exact .nil
  | cons hx _ ih =>
    rw [List.filterMap_cons, List.filterMap_cons]
    have := hf _ _ hx
    revert this
    generalize f _ = u
    generalize g _ = v
    intro this
    cases this with
    | none => exact ih
    | some h => exact .cons h ih

theorem forall₂_flatMap_lists {α β γ δ : Type} {R : α → β → Prop} {S : γ → δ → Prop} {f : α → List γ} {g : β → List δ}
    (hf : ∀ x y, R x y → List.Forall₂ S (f x) (g y)) {a : List α} {b : List β} (h : List.Forall₂ R a b) :
    List.Forall₂ S (a.flatMap f) (b.flatMap g) := by
  induction h with
  | nil => exact .nil
  | cons hx _ ih =>
    rw [List.flatMap_cons, List.flatMap_cons]
    exact List.rel_append (hf _ _ hx) ih

theorem forall₂_zipIdx {α β : Type} {R : α → β → Prop} {a : List α} {b : List β} (h : List.Forall₂ R a b) (n : Nat) :
    List.Forall₂ (fun x y => R x.1 y.1 ∧ x.2 = y.2) (a.zipIdx n) (b.zipIdx n) := by
  induction h generalizing n with
  | nil => exact .nil
  | cons hx _ ih => exact .cons ⟨hx, rfl⟩ (ih (n + 1))

theorem forall₂_getLast? {α β : Type} {R : α → β → Prop} {a : List α} {b : List β} (h : List.Forall₂ R a b) :
    Option.Rel R a.getLast? b.getLast? := by
  induction h with
  | nil => exact .none
  | cons hx ht ih =>
    cases ht with
    | nil => exact .some hx
    | cons hy ht => exact ih

/-- What matters to the receiver in a record is read back. -/
structure RecLike (r r' : ServiceDataRecord) : Prop where
  subs : List.Forall₂ SubLike r.recordDataSet r'.recordDataSet
  num : r'.recordNumber = r.recordNumber
  service : r'.sourceServiceType = r.sourceServiceType
  ids : r'.ids = r.ids

theorem back_record {env : Env} {r r' : ServiceDataRecord} (h : ServiceDataRecord.ReadBack env r r') (hw : r.WF env)
    (hc : ∀ x ∈ r.recordDataSet, ∀ d, x.subrecordData = some d → d.Carried) : RecLike r r' := by
  obtain ⟨h1, _, h2⟩ := h
  have hs : List.Forall₂ SubLike r.recordDataSet r'.recordDataSet :=
    forall₂_mono_mem (fun x hx y hxy => back_sub hxy (hw.2.2.2.2.2.2.2.2.1 x hx) (hc x hx)) h1
  have ho : r'.obfe = r.obfe := by rw [h2]
  have hi : r'.objectIdentifier = present r.obfe r.objectIdentifier 0 := by rw [h2]
  refine ⟨hs, by rw [h2], by rw [h2], ?_⟩
  unfold ServiceDataRecord.ids ServiceDataRecord.idsIn
  rw [ho, hi]
  congr 1
  · split
    · rename_i h; rw [h]; rfl
    · rfl
  · rw [List.map_filterMap, List.map_filterMap]
    exact filterMap_like (fun x y h => h.term) hs

theorem RecLike.login {r r' : ServiceDataRecord} (h : RecLike r r') :
    r'.recordDataSet.any (·.isLogin) = r.recordDataSet.any (·.isLogin) := any_like (fun _ _ h => h.login) h.subs

theorem RecLike.resp {r r' : ServiceDataRecord} (h : RecLike r r') : r'.hasResp = r.hasResp := any_like (fun _ _ h => h.resp) h.subs

theorem RecLike.storedId {r r' : ServiceDataRecord} (h : RecLike r r') (pid : UInt16) :
    storedId pid r'.recordDataSet = storedId pid r.recordDataSet := by
  have e : idCounters r'.recordDataSet = idCounters r.recordDataSet := by
    unfold idCounters
    rw [filterMap_like (fun x y h => h.counter) h.subs]
  unfold Egts.storedId lowCounter
  rw [e]

theorem stored_like (pid : UInt16) (now : Int) (c : UInt32) {s s' : List ServiceDataRecord} (h : List.Forall₂ RecLike s s') :
    List.Forall₂ NavRecord.Near (stored pid now c s) (stored pid now c s') := by
  unfold stored
  refine forall₂_filterMap_opt ?_ (forall₂_zipIdx h 0)
  rintro ⟨r, i⟩ ⟨r', j⟩ ⟨hr, hij⟩
  have hij : i = j := hij
  subst hij
  have hr : RecLike r r' := hr
  have hids : (s'.take (i + 1)).flatMap (·.ids) = (s.take (i + 1)).flatMap (·.ids) :=
    flatMap_like (fun _ _ h => h.ids) (List.forall₂_take (i + 1) h)
  have hp := forall₂_getLast? (forall₂_filterMap_opt (fun _ _ h => h.pos) hr.subs)
  simp only
  rw [hids, hr.storedId]
  revert hp
  generalize (List.filterMap (fun x => x.pos?) r.recordDataSet).getLast? = u
  generalize (List.filterMap (fun x => x.pos?) r'.recordDataSet).getLast? = v
  intro hp
  cases hp with
  | none => exact .none
  | some h =>
    rename_i a b
    obtain ⟨h1, h2, h3, h4, h5⟩ := h
    refine .some ⟨h1, h2, ?_⟩
    unfold storedAs
    rw [filterMap_like (fun x y h => h.ext) hr.subs, flatMap_like (fun x y h => h.analog) hr.subs,
      flatMap_like (fun x y h => h.liquids) hr.subs]
    simp only [h3, h4, h5]

theorem acceptance_like (pid : UInt16) {s s' : List ServiceDataRecord} (h : List.Forall₂ RecLike s s') :
    acceptance pid s' = acceptance pid s := by
  have hl := h.length_eq
  have hne : s' = [] ↔ s = [] := by
    rw [← List.length_eq_zero_iff, ← List.length_eq_zero_iff, hl]
  have hlast : s'.getLast?.map (·.sourceServiceType) = s.getLast?.map (·.sourceServiceType) := by
    rw [← List.getLast?_map, ← List.getLast?_map, map_like (fun _ _ h => h.service) h]
  unfold acceptance
  simp only [hne, hlast, ← hl]
  rw [map_like (fun x y (h : RecLike x y) => by rw [h.num]) h]

/-! ## Packets -/

theorem report_accepted {env : Env} {p : Package} {s : List ServiceDataRecord} (h : Report env p s) {f : Bytes}
    (hf : (p.encode env none).2 = .ok f) (sp : Bytes) :
    WellFramed f ∧ ∃ q s', Accepts env ⟨f, sp⟩ q s' ∧ q.packetIdentifier = p.packetIdentifier ∧ List.Forall₂ RecLike s s' := by
  obtain ⟨hhead, d, body, hd, hcode, hwd, hbody, _, _⟩ := id h.wf
  rw [h.records] at hd
  cases hd
  have hbs : ServiceDataSet.encode env s = .ok body := by
    unfold Package.Body at hbody
    rw [h.records] at hbody
    obtain ⟨x, hx, hh⟩ := hbody
    rcases hh with ⟨_, rfl⟩ | ⟨hn, _⟩
    · exact hx
    · exact absurd h.plain hn
  have hfit := h.fits body hbs
  obtain ⟨out, e1, _, e2⟩ := C06_application_exact env none p {} sp body s h.records h.wf h.plain hbs
  rw [hf] at e1
  cases e1
  obtain ⟨q, e3, ⟨d, d', body', k1, k2, k3, k4, k5⟩, _⟩ := e2 (by omega)
  rw [h.records] at k1
  cases k1
  refine ⟨C42_library_frames env none p (p.encode env none).1 f (Prod.ext rfl hf) h.version hhead.2.2.2.2.2 ?_, ?_⟩
  · intro b hb
    rw [body_unique hb hbody]
    exact hfit
  · cases d' with
    | resp r => exact k3.elim
    | sds s' =>
      refine ⟨q, s', ⟨e3, ?_, k2⟩, by rw [k5], ?_⟩
      · rw [k5]; exact hcode
      · exact forall₂_mono_mem (fun r hr r' hrr => back_record hrr (hwd.2 r hr) (h.carried r hr)) k3

theorem packetIds_accepts {env : Env} {pkt : Slice} {q : Package} {s : List ServiceDataRecord} (h : Accepts env pkt q s)
    (hr : ∀ r ∈ s, r.hasResp = false) : packetIds env pkt = s.flatMap (·.ids) := by
  have e : accepted env pkt = some (q.packetIdentifier, s) := by
    unfold accepted
    rw [h.1]
    simp only [h.2.1, h.2.2, if_true]
  have e1 : beforeResp s = s := (beforeResp_all hr).1
  have e2 : s.find? (·.hasResp) = none := by
    rw [List.find?_eq_none]
    intro r hr'
    simp [hr r hr']
  unfold packetIds
  rw [e]
  simp only [e1, e2, List.append_nil]

/-- Packets and what the library encodes them to. -/
def SentAs (env : Env) (x : Package × List ServiceDataRecord) (f : Bytes) : Prop :=
  Report env x.1 x.2 ∧ (x.1.encode env none).2 = .ok f

theorem noResp_like {s s' : List ServiceDataRecord} (h : List.Forall₂ RecLike s s') (hr : ∀ r ∈ s, r.hasResp = false) :
    ∀ r ∈ s', r.hasResp = false := by
  induction h with
  | nil => intro r hr; cases hr
  | cons hx _ ih =>
    intro r hr'
    rcases List.mem_cons.mp hr' with rfl | hr'
    · rw [hx.resp]; exact hr _ (by simp)
    · exact ih (fun r h => hr r (by simp [h])) r hr'

theorem sentAs_ids {env : Env} {x : Package × List ServiceDataRecord} {f : Bytes} (h : SentAs env x f) (sp : Bytes) :
    packetIds env ⟨f, sp⟩ = x.2.flatMap (·.ids) := by
  obtain ⟨_, q, s', ha, _, hl⟩ := report_accepted h.1 h.2 sp
  rw [packetIds_accepts ha (noResp_like hl h.1.noResponse), flatMap_like (fun _ _ h => h.ids) hl]

theorem idsBefore_sent {env : Env} (ce : ConnEnv) {sent : List (Package × List ServiceDataRecord)} {frames : List Bytes}
    (h : List.Forall₂ (SentAs env) sent frames) (n : Nat) : idsBefore env ce frames n = idsSent sent n := by
  unfold idsBefore idsSent
  have h := List.forall₂_take n h
  generalize sent.take n = a at h
  generalize frames.take n = b at h
  generalize 0 = k
  induction h generalizing k with
  | nil => rfl
  | cons hx _ ih =>
    rw [List.zipIdx_cons, List.flatMap_cons, List.flatMap_cons, ih (k + 1)]
    exact congrArg (· ++ _) (sentAs_ids hx (ce.spare k))

theorem handlePacket_sent {env : Env} {x : Package × List ServiceDataRecord} {f : Bytes} (h : SentAs env x f) (now : Int) (c : UInt32) (sp : Bytes) :
    ∃ recs ws, (handlePacket env now c ⟨f, sp⟩).effs = recs.map .save ++ ws.map .write ∧
      List.Forall₂ NavRecord.Near (stored x.1.packetIdentifier now c x.2) recs ∧ Answers env x ws := by
  obtain ⟨_, q, s', ha, hq, hl⟩ := report_accepted h.1 h.2 sp
  obtain ⟨ack, h1, h2⟩ := C44_acknowledged env now c ⟨f, sp⟩ q s' ha (noResp_like hl h.1.noResponse)
  rw [hq, acceptance_like _ hl] at h1
  rw [hq, any_like (fun _ _ h => h.login) hl] at h2
  refine ⟨_, _, ?_, stored_like _ now c hl, ⟨ack, h1, rfl⟩⟩
  rw [h2]
  congr 1
  split <;> rfl

theorem mem_sent {env : Env} {sent : List (Package × List ServiceDataRecord)} {frames : List Bytes}
    (h : List.Forall₂ (SentAs env) sent frames) {f : Bytes} (hf : f ∈ frames) : ∃ x ∈ sent, SentAs env x f := by
  induction h with
  | nil => cases hf
  | cons hx _ ih =>
    rcases List.mem_cons.mp hf with rfl | hf
    · exact ⟨_, by simp, hx⟩
    · obtain ⟨x, h1, h2⟩ := ih hf
      exact ⟨x, by simp [h1], h2⟩

theorem frames_good {env : Env} (ce : ConnEnv) {sent : List (Package × List ServiceDataRecord)} {frames : List Bytes}
    (h : List.Forall₂ (SentAs env) sent frames) : (∀ f ∈ frames, WellFramed f) ∧ NoPanic env ce frames := by
  constructor
  · intro f hf
    obtain ⟨x, _, hx⟩ := mem_sent h hf
    exact (report_accepted hx.1 hx.2 []).1
  · intro i f hf
    obtain ⟨x, _, hx⟩ := mem_sent h (List.mem_of_getElem? hf)
    obtain ⟨_, q, s', ha, _⟩ := report_accepted hx.1 hx.2 (ce.spare i)
    rw [ha.1]
    intro h; cases h

/-- A process that dies does so by an effect of one of the goroutines that have run. -/
theorem crash_by {W E : Type} {env : Env} {ce : Nat → ConnEnv} {stores : List (Saver W E)} {s s' : System W E} {evs : List Event}
    (h : s.exec env ce stores evs = some s') (hc : s.crashed = false) (hc' : s'.crashed = true) :
    ∃ k, Event.effect k ∈ evs ∧ Effect.crash ∈ doneBy s' k := by
  induction evs using List.reverseRecOn generalizing s' with
  | nil => cases h; rw [hc] at hc'; cases hc'
  | append_singleton evs ev ih =>
    rw [System.exec_append, Option.bind_eq_some_iff] at h
    obtain ⟨s1, h1, h2⟩ := h
    simp only [System.exec, Option.bind_eq_some_iff] at h2
    obtain ⟨s2, h2, h3⟩ := h2
    cases h3
    unfold System.step at h2
    split at h2
    · cases h2
    · rename_i hn
      cases ev with
      | accept k =>
        simp only at h2
        split at h2
        · cases h2
        · cases h2; exact absurd hc' hn
      | deliver k b =>
        simp only [Option.bind_eq_some_iff] at h2
        obtain ⟨c, _, h2⟩ := h2
        split at h2
        · cases h2; exact absurd hc' hn
        · cases h2
      | hangup k b =>
        simp only [Option.bind_eq_some_iff] at h2
        obtain ⟨c, _, h2⟩ := h2
        split at h2
        · cases h2; exact absurd hc' hn
        · cases h2
      | iterate k =>
        simp only [Option.bind_eq_some_iff, Option.map_eq_some_iff] at h2
        obtain ⟨c, _, c', _, rfl⟩ := h2
        exact absurd hc' hn
      | effect k =>
        simp only [Option.bind_eq_some_iff] at h2
        obtain ⟨c, _, h2⟩ := h2
        split at h2
        · cases h2
        · rename_i x rest hp
          cases h2
          have hx : x = .crash := by
            cases x <;> first | rfl | exact absurd hc' hn
          refine ⟨k, by simp, ?_⟩
          rw [doneBy_set, doneBy_perform, if_pos rfl, hx]
          simp

theorem receivedOn_own {k : Nat} {evs more : List Event} (h : ∀ ev ∈ more, ev = .iterate k ∨ ev = .effect k) :
    receivedOn k (evs ++ more) = receivedOn k evs := by
  have e : receivedOn k (evs ++ more) = receivedOn k evs ++ receivedOn k more := List.flatMap_append ..
  have : receivedOn k more = [] := by
    refine List.flatMap_eq_nil_iff.mpr fun ev hev => ?_
    rcases h ev hev with rfl | rfl <;> rfl
  rw [e, this, List.append_nil]

end Egts
