import Verif.Spec.Storage
import Verif.Props.Receiver

/-! # Storages (C52–C54) -/

namespace Egts

variable {W E : Type}

/-! ## C53 -/

theorem answer_cons_zero (s : Saver W E) (stores : List (Saver W E)) (m : NavRecord) (w : W) : answer (s :: stores) m w 0 = (s m w).2 := rfl

theorem answer_cons_succ (s : Saver W E) (stores : List (Saver W E)) (m : NavRecord) (w : W) (i : Nat) :
    answer (s :: stores) m w (i + 1) = answer stores m (s m w).1 i := rfl

/-- If all storages accept, the record has been offered to all of them in order, and the result is nil. -/
theorem C53_all_accept (stores : List (Saver W E)) (m : NavRecord) (w : W) (h : AllAccept stores m w) :
    Repository.save stores m w = (offered stores m w, none) := by
  induction stores generalizing w with
  | nil => rfl
  | cons s stores ih =>
    have h0 := h 0 (by simp)
    rw [answer_cons_zero] at h0
    unfold Repository.save
    have : s m w = ((s m w).1, none) := Prod.ext rfl h0
    rw [this]
    simp only
    rw [ih (s m w).1 (fun i hi => by
      have := h (i + 1) (by simp; omega)
      rwa [answer_cons_succ] at this)]
    rfl

/-- If the `i`-th storage is the first to refuse, the record has been offered to those before it and to it, and not
to those behind it, and its error is the result. -/
theorem C53_first_failure (stores : List (Saver W E)) (m : NavRecord) (w : W) (i : Nat) (e : E)
    (h : ∀ j < i, answer stores m w j = none) (he : answer stores m w i = some e) :
    Repository.save stores m w = (offered (stores.take (i + 1)) m w, some e) := by
  induction stores generalizing w i with
  | nil => simp [answer] at he
  | cons s stores ih =>
    unfold Repository.save
    cases i with
    | zero =>
      rw [answer_cons_zero] at he
      have : s m w = ((s m w).1, some e) := Prod.ext rfl he
      rw [this]
      rfl
    | succ i =>
      have h0 := h 0 (by omega)
      rw [answer_cons_zero] at h0
      have : s m w = ((s m w).1, none) := Prod.ext rfl h0
      rw [this]
      simp only
      rw [ih (s m w).1 i (fun j hj => by
        have := h (j + 1) (by omega)
        rwa [answer_cons_succ] at this) (by rwa [answer_cons_succ] at he)]
      rfl

/-- The result is nil iff every storage accepted. -/
theorem C53_nil_iff (stores : List (Saver W E)) (m : NavRecord) (w : W) :
    (Repository.save stores m w).2 = none ↔ AllAccept stores m w := by
  constructor
  · intro h
    by_contra hn
    unfold AllAccept at hn
    push Not at hn
    obtain ⟨i, hi, hne⟩ := hn
    have hex : ∃ i, answer stores m w i ≠ none := ⟨i, hne⟩
    classical
    have hmin := Nat.find_spec hex
    obtain ⟨e, he⟩ := Option.ne_none_iff_exists'.mp hmin
    have := C53_first_failure stores m w (Nat.find hex) e (fun j hj => by
      by_contra h'
      exact Nat.find_min hex hj h') he
    rw [this] at h
    cases h
  · intro h
    rw [C53_all_accept stores m w h]

/-- three storages that append to a log; the second refuses -/
def logSaver (n : Nat) (fail : Bool) : Saver (List (Nat × NavRecord)) String := fun r w =>
  if fail then (w, some "disk full") else (w ++ [(n, r)], none)

example : answer [logSaver 0 false, logSaver 1 true, logSaver 2 false] {} [] 0 = none ∧
    answer [logSaver 0 false, logSaver 1 true, logSaver 2 false] {} [] 1 = some "disk full" ∧
    Repository.save [logSaver 0 false, logSaver 1 true, logSaver 2 false] {} [] = ([(0, {})], some "disk full") := by decide

example : AllAccept [logSaver 0 false, logSaver 2 false] {} [] := by unfold AllAccept; decide

/-! ## C54 -/

theorem loadLoop_ok (cs : Connectors W E) (stores : List (Saver W E)) (w : W) (cfg : List (Bytes × Params))
    (h : ∀ i < cfg.length, EntryOk cs cfg w i) :
    loadLoop cs stores w cfg = (stores ++ cfg.map (fun x => cs.saver x.1 x.2), inited cs cfg w, none) := by
  induction cfg generalizing stores w with
  | nil => simp [loadLoop, inited]
  | cons x cfg ih =>
    obtain ⟨h1, h2⟩ := h 0 (by simp) x rfl
    have h2' : (cs.init x.1 x.2 w).2 = none := h2
    unfold loadLoop
    rw [if_pos (show x.1 ∈ supportedNames from h1)]
    have : cs.init x.1 x.2 w = ((cs.init x.1 x.2 w).1, none) := Prod.ext rfl h2'
    rw [this]
    simp only
    rw [ih _ _ (fun i hi y hy => by
      have := h (i + 1) (by simp; omega) y hy
      exact this)]
    simp [inited]

theorem loadLoop_fail (cs : Connectors W E) (stores : List (Saver W E)) (w : W) (cfg : List (Bytes × Params)) (i : Nat)
    (h : ∀ j < i, EntryOk cs cfg w j) (hi : ¬ EntryOk cs cfg w i) :
    ∃ w' e x, loadLoop cs stores w cfg = (stores ++ (cfg.take i).map (fun x => cs.saver x.1 x.2), w', some e) ∧ cfg[i]? = some x ∧
      (x.1 ∉ storageNames → e = .unknownStorage) ∧
      (x.1 ∈ storageNames → ∃ er, (cs.init x.1 x.2 (inited cs (cfg.take i) w)).2 = some er ∧ e = .init er) := by
  induction cfg generalizing stores w i with
  | nil => exact absurd (fun x hx => by simp at hx) hi
  | cons x cfg ih =>
    cases i with
    | zero =>
      unfold loadLoop
      by_cases h1 : x.1 ∈ storageNames
      · rw [if_pos (show x.1 ∈ supportedNames from h1)]
        have h2 : (cs.init x.1 x.2 w).2 ≠ none := by
          intro h2
          apply hi
          intro y hy
          simp only [List.getElem?_cons_zero, Option.some.injEq] at hy
          subst hy
          exact ⟨h1, h2⟩
        obtain ⟨e, he⟩ := Option.ne_none_iff_exists'.mp h2
        have : cs.init x.1 x.2 w = ((cs.init x.1 x.2 w).1, some e) := Prod.ext rfl he
        rw [this]
        exact ⟨(cs.init x.1 x.2 w).1, .init e, x, by simp, rfl, fun h => absurd h1 h, fun _ => ⟨e, he, rfl⟩⟩
      · rw [if_neg (show ¬ x.1 ∈ supportedNames from h1)]
        exact ⟨w, .unknownStorage, x, by simp, rfl, fun _ => rfl, fun h => absurd h h1⟩
    | succ i =>
      obtain ⟨h1, h2⟩ := h 0 (by omega) x rfl
      have h2' : (cs.init x.1 x.2 w).2 = none := h2
      unfold loadLoop
      rw [if_pos (show x.1 ∈ supportedNames from h1)]
      have : cs.init x.1 x.2 w = ((cs.init x.1 x.2 w).1, none) := Prod.ext rfl h2'
      rw [this]
      simp only
      obtain ⟨w', e, y, he, hrest⟩ := ih (stores ++ [cs.saver x.1 x.2]) (cs.init x.1 x.2 w).1 i (fun j hj y hy => h (j + 1) (by omega) y hy)
        (fun hok => hi (fun y hy => hok y hy))
      exact ⟨w', e, y, by rw [he]; simp, hrest⟩

/-- Loading succeeds iff the configuration is not empty, all names are supported and every `Init` succeeds. -/
theorem C54_succeeds_iff (cs : Connectors W E) (stores : List (Saver W E)) (w : W) (cfg : List (Bytes × Params)) :
    (loadStorages cs stores w cfg).2.2 = none ↔ cfg ≠ [] ∧ ∀ i < cfg.length, EntryOk cs cfg w i := by
  unfold loadStorages
  by_cases h0 : cfg = []
  · subst h0; simp
  · have hl : cfg.length ≠ 0 := fun h => h0 (List.length_eq_zero_iff.mp h)
    rw [if_neg hl]
    constructor
    · intro h
      refine ⟨h0, ?_⟩
      by_contra hn
      push Not at hn
      obtain ⟨i, hi, hne⟩ := hn
      have hex : ∃ i, ¬ EntryOk cs cfg w i := ⟨i, hne⟩
      classical
      obtain ⟨w', e, x, he, _⟩ := loadLoop_fail cs stores w cfg (Nat.find hex) (fun j hj => by
        by_contra h'; exact Nat.find_min hex hj h') (Nat.find_spec hex)
      rw [he] at h
      cases h
    · rintro ⟨_, h⟩
      rw [loadLoop_ok cs stores w cfg h]

/-- The errors: for the empty configuration, for an unsupported name and that of the `Init` that failed. -/
theorem C54_errors (cs : Connectors W E) (stores : List (Saver W E)) (w : W) (cfg : List (Bytes × Params)) :
    (cfg = [] → (loadStorages cs stores w cfg).2.2 = some .invalidStorage) ∧
    ∀ i x, (∀ j < i, EntryOk cs cfg w j) → cfg[i]? = some x →
      (x.1 ∉ storageNames → (loadStorages cs stores w cfg).2.2 = some .unknownStorage) ∧
      (∀ er, x.1 ∈ storageNames → (cs.init x.1 x.2 (inited cs (cfg.take i) w)).2 = some er →
        (loadStorages cs stores w cfg).2.2 = some (.init er)) := by
  constructor
  · rintro rfl; rfl
  · intro i x h hx
    have hl : cfg.length ≠ 0 := by
      intro h; have := List.length_eq_zero_iff.mp h; subst this; simp at hx
    unfold loadStorages
    rw [if_neg hl]
    constructor
    · intro hs
      obtain ⟨w', e, y, he, hy, h1, _⟩ := loadLoop_fail cs stores w cfg i h (fun hok => hs (hok x hx).1)
      rw [hx] at hy; cases hy
      rw [he, h1 hs]
    · intro er hs her
      obtain ⟨w', e, y, he, hy, _, h2⟩ := loadLoop_fail cs stores w cfg i h (fun hok => by
        have := (hok x hx).2
        rw [her] at this; cases this)
      rw [hx] at hy; cases hy
      obtain ⟨er', g1, g2⟩ := h2 hs
      rw [her] at g1; cases g1
      rw [he, g2]

/-- Then each configured storage has been added exactly once, in the order of the iteration. -/
theorem C54_adds_each_once (cs : Connectors W E) (stores : List (Saver W E)) (w : W) (cfg : List (Bytes × Params))
    (h : (loadStorages cs stores w cfg).2.2 = none) :
    (loadStorages cs stores w cfg).1 = stores ++ cfg.map (fun x => cs.saver x.1 x.2) := by
  obtain ⟨h0, h1⟩ := (C54_succeeds_iff cs stores w cfg).mp h
  have hl : cfg.length ≠ 0 := fun h => h0 (List.length_eq_zero_iff.mp h)
  unfold loadStorages
  rw [if_neg hl, loadLoop_ok cs stores w cfg h1]

/-- The order in which the map is iterated does not matter, as long as the success of an `Init` does not depend on
the order of connecting: loading succeeds in every order or in none, and the storages are the same ones. -/
theorem C54_any_order (cs : Connectors W E) (w : W) (cfg cfg' : List (Bytes × Params)) (hp : cfg.Perm cfg')
    (hind : ∀ x ∈ cfg, ∀ w w', (cs.init x.1 x.2 w).2 = (cs.init x.1 x.2 w').2) :
    ((loadStorages cs [] w cfg).2.2 = none ↔ (loadStorages cs [] w cfg').2.2 = none) ∧
    ((loadStorages cs [] w cfg).2.2 = none → (loadStorages cs [] w cfg).1.Perm (loadStorages cs [] w cfg').1) := by
  have key : ∀ c : List (Bytes × Params), (∀ x ∈ c, ∀ w w', (cs.init x.1 x.2 w).2 = (cs.init x.1 x.2 w').2) →
      ((loadStorages cs [] w c).2.2 = none ↔ c ≠ [] ∧ ∀ x ∈ c, x.1 ∈ storageNames ∧ (cs.init x.1 x.2 w).2 = none) := by
    intro c hc
    rw [C54_succeeds_iff]
    refine and_congr_right (fun _ => ⟨fun h x hx => ?_, fun h i hi x hx => ?_⟩)
    · obtain ⟨i, hi, rfl⟩ := List.getElem_of_mem hx
      obtain ⟨h1, h2⟩ := h i hi _ (List.getElem?_eq_getElem hi)
      exact ⟨h1, by rw [← h2]; exact hc _ hx _ _⟩
    · have hm := List.mem_of_getElem? hx
      obtain ⟨h1, h2⟩ := h x hm
      exact ⟨h1, by rw [← h2]; exact hc _ hm _ _⟩
  have iff1 : (loadStorages cs [] w cfg).2.2 = none ↔ (loadStorages cs [] w cfg').2.2 = none := by
    rw [key cfg hind, key cfg' (fun x hx => hind x (hp.mem_iff.mpr hx))]
    constructor
    · rintro ⟨h1, h2⟩
      exact ⟨fun h => h1 (by subst h; exact hp.eq_nil), fun x hx => h2 x (hp.mem_iff.mpr hx)⟩
    · rintro ⟨h1, h2⟩
      exact ⟨fun h => h1 (by subst h; exact hp.symm.eq_nil), fun x hx => h2 x (hp.mem_iff.mp hx)⟩
  refine ⟨iff1, fun h => ?_⟩
  rw [C54_adds_each_once cs [] w cfg h, C54_adds_each_once cs [] w cfg' (iff1.mp h)]
  exact (hp.map _)

/-- Whatever happens, the receiver has at least one storage. -/
theorem C54_never_empty (cs : Connectors W E) (logConnector : Saver W E) (w : W) (cfg : List (Bytes × Params)) :
    (mainStorages cs logConnector w cfg).1 ≠ [] := by
  unfold mainStorages
  cases h : (loadStorages cs [] w cfg).2.2 with
  | none =>
    have h1 := C54_adds_each_once cs [] w cfg h
    have h2 := ((C54_succeeds_iff cs [] w cfg).mp h).1
    rcases hl : loadStorages cs [] w cfg with ⟨st, w', e⟩
    rw [hl] at h h1
    simp only at h h1
    subst h
    simp only [h1]
    simpa using h2
  | some e =>
    rcases hl : loadStorages cs [] w cfg with ⟨st, w', e'⟩
    rw [hl] at h
    simp only at h
    subst h
    simp

/-- If loading fails at entry `i`, the storages before it stay, so which ones there are then does depend on the order
of iteration; the log is added. -/
theorem C54_after_failure (cs : Connectors W E) (logConnector : Saver W E) (w : W) (cfg : List (Bytes × Params)) (i : Nat)
    (h : ∀ j < i, EntryOk cs cfg w j) (hi : ¬ EntryOk cs cfg w i) :
    (mainStorages cs logConnector w cfg).1 = (cfg.take i).map (fun x => cs.saver x.1 x.2) ++ [logConnector] := by
  obtain ⟨w', e, x, he, _⟩ := loadLoop_fail cs [] w cfg i h hi
  have h0 : cfg.length ≠ 0 := by
    intro h
    have := List.length_eq_zero_iff.mp h
    subst this
    exact hi (fun x hx => by simp at hx)
  unfold mainStorages loadStorages
  rw [if_neg h0, he]
  simp

/-- connectors that can be reached iff the parameters are not empty -/
def toyConnectors : Connectors Unit String where
  init := fun _ ps w => (w, if ps = none then some "no parameters" else none)
  saver := fun _ _ _ w => (w, none)

example : ∀ i < 2, EntryOk toyConnectors [(go!"redis", [(go!"db", go!"0")]), (go!"nats", [(go!"topic", go!"t")])] () i := by
  intro i hi x hx
  rcases i with _ | _ | i
  · simp only [List.getElem?_cons_zero, Option.some.injEq] at hx; subst hx; exact ⟨by decide, by decide⟩
  · simp only [List.getElem?_cons_succ, List.getElem?_cons_zero, Option.some.injEq] at hx; subst hx; exact ⟨by decide, by decide⟩
  · omega

example : ¬ EntryOk toyConnectors [(go!"redis", some [(go!"db", go!"0")]), (go!"mongo", some [])] () 1 := by
  intro h
  exact absurd (h (go!"mongo", some []) rfl).1 (by decide)

/-! ## C52 -/

theorem runEffs_append (stores : List (Saver W E)) (w : W) (a b : List Effect) :
    runEffs stores w (a ++ b) = ((runEffs stores (runEffs stores w a).1 b).1, (runEffs stores w a).2 ++ (runEffs stores (runEffs stores w a).1 b).2) := by
  induction a generalizing w with
  | nil => rfl
  | cons x a ih =>
    cases x <;> simp only [List.cons_append, runEffs, ih]

theorem runEffs_saves (stores : List (Saver W E)) (w : W) (rs : List NavRecord) :
    runEffs stores w (rs.map .save) = ((saveAll stores w rs).1, (saveAll stores w rs).2.map (fun x => .saved x.1 x.2)) := by
  induction rs generalizing w with
  | nil => rfl
  | cons r rs ih => simp only [List.map_cons, runEffs, saveAll, ih]

/-- C52 is false: whatever the storages answer, the same acknowledgement is sent. In particular a storage that refuses
everything and keeps nothing does not prevent both records of the example packet from being confirmed. -/
theorem C52_false (env : Env) (now : Int) (client : UInt32) (sp : Bytes) (err : E) :
    ∃ (store : Saver W E) (ack : Bytes), (∀ r w, store r w = (w, some err)) ∧
      IsResponse env ack 5 (acceptance 5 Ex.goodRecs) ∧ (Ex.goodRecs.filter (·.hasPos)).length = 2 ∧
      ∀ w, (runEffs [store] w (handlePacket env now client ⟨Ex.good, sp⟩).effs).1 = w ∧
        .other (.write ack) ∈ (runEffs [store] w (handlePacket env now client ⟨Ex.good, sp⟩).effs).2 := by
  obtain ⟨ack, h1, h2⟩ := C44_acknowledged env now client _ _ _ (Ex.good_accepts env sp) (by decide)
  refine ⟨fun _ w => (w, some err), ack, fun _ _ => rfl, h1, by decide, fun w => ?_⟩
  have hw : ∀ rs w, (saveAll [fun (_ : NavRecord) (w : W) => (w, some err)] w rs).1 = w := by
    intro rs
    induction rs with
    | nil => intro w; rfl
    | cons r rs ih => intro w; simp only [saveAll, Repository.save, ih]
  rw [h2, runEffs_append, runEffs_saves, hw]
  rw [if_pos (by decide)]
  simp only [runEffs]
  exact ⟨trivial, List.mem_append_right _ List.mem_cons_self⟩

/-- What holds: when the acknowledgement is written, all records with positions have been offered to the repository, in
order. So if none of these calls failed (which the receiver does not check), every storage has accepted every one of
them before. Missing: the receiver ignoring failures. -/
theorem C52_offered_before_ack_partial (stores : List (Saver W E)) (w : W) (env : Env) (now : Int) (client : UInt32) (pkt : Slice)
    (p : Package) (recs : List ServiceDataRecord) (h : Accepts env pkt p recs) (hr : ∀ r ∈ recs, r.hasResp = false) :
    ∃ ack rest, IsResponse env ack p.packetIdentifier (acceptance p.packetIdentifier recs) ∧
      (runEffs stores w (handlePacket env now client pkt).effs).2 =
        (saveAll stores w (stored p.packetIdentifier now client recs)).2.map (fun x => .saved x.1 x.2) ++ .other (.write ack) :: rest ∧
      (saveAll stores w (stored p.packetIdentifier now client recs)).2.map (·.1) = stored p.packetIdentifier now client recs ∧
      ∀ i (hi : i < (stored p.packetIdentifier now client recs).length),
        ((saveAll stores w (stored p.packetIdentifier now client recs)).2[i]?.map (·.2) = some none ↔
          AllAccept stores (stored p.packetIdentifier now client recs)[i]
            (saveAll stores w ((stored p.packetIdentifier now client recs).take i)).1) := by
  obtain ⟨ack, h1, h2⟩ := C44_acknowledged env now client pkt p recs h hr
  have hfst : ∀ (rs : List NavRecord) (w : W), (saveAll stores w rs).2.map (·.1) = rs := by
    intro rs
    induction rs with
    | nil => intro w; rfl
    | cons r rs ih => intro w; simp only [saveAll, List.map_cons, ih]
  have hget : ∀ (rs : List NavRecord) (w : W) (i : Nat) (hi : i < rs.length),
      ((saveAll stores w rs).2[i]?.map (·.2) = some none ↔ AllAccept stores rs[i] (saveAll stores w (rs.take i)).1) := by
    intro rs
    induction rs with
    | nil => intro w i hi; simp at hi
    | cons r rs ih =>
      intro w i hi
      cases i with
      | zero =>
        simp only [saveAll, List.getElem?_cons_zero, Option.map_some, Option.some.injEq, List.getElem_cons_zero, List.take_zero]
        exact C53_nil_iff stores r w
      | succ i =>
        simp only [saveAll, List.getElem?_cons_succ, List.getElem_cons_succ, List.take_succ_cons]
        exact ih _ i (by simpa using hi)
  have e := h2
  generalize (if recs.any (fun r => r.recordDataSet.any (·.isLogin)) then [Effect.write (resultPacket p.packetIdentifier)] else []) = tl at e
  refine ⟨ack, (runEffs stores (saveAll stores w (stored p.packetIdentifier now client recs)).1 tl).2, h1, ?_, hfst _ _,
    fun i hi => hget _ w i hi⟩
  rw [e, runEffs_append, runEffs_saves]
  simp only [runEffs]

end Egts
