import Verif.Spec.Connectors
import Verif.Props.Json
import Verif.Props.System

/-! # The connectors (C69, C70) -/

namespace Egts

variable {W E : Type}

/-! ## Numbers -/

theorem atoiDigits_iff (neg : Bool) (ds : Bytes) (n : Int) : atoiDigits neg ds = some n ↔
    ds ≠ [] ∧ (∀ c ∈ ds, 48 ≤ c ∧ c ≤ 57) ∧
      n = (if neg then -1 else 1) * ((ds.foldl (fun n c => 10 * n + (c.toNat - 48)) 0 : Nat) : Int) ∧ -2 ^ 63 ≤ n ∧ n < 2 ^ 63 := by
  have hany : ds.any (fun c => c < 48 || 57 < c) = true ↔ ¬ ∀ c ∈ ds, 48 ≤ c ∧ c ≤ 57 := by
    rw [List.any_eq_true]
    push Not
    refine exists_congr fun c => and_congr_right fun _ => ?_
    simp only [Bool.or_eq_true, decide_eq_true_eq]
    constructor
    · rintro (h | h) h2
      · exact absurd h2 (UInt8.not_le.mpr h)
      · exact UInt8.not_le.mpr h
    · intro h
      by_cases h2 : 48 ≤ c
      · exact .inr (UInt8.not_le.mp (h h2))
      · exact .inl (UInt8.not_le.mp h2)
  unfold atoiDigits
  by_cases h0 : ds = []
  · simp [h0]
  · by_cases hd : ∀ c ∈ ds, 48 ≤ c ∧ c ≤ 57
    · rw [if_neg (by rintro (h | h); exact h0 h; exact (hany.mp h) hd)]
      generalize ds.foldl (fun n c => 10 * n + (c.toNat - 48)) 0 = v
      refine Iff.trans ?_ ((and_iff_right h0).trans (and_iff_right hd)).symm
      cases neg with
      | true =>
        simp only [if_true]
        split
        · simp only [Option.some.injEq]; omega
        · simp only [reduceCtorEq, false_iff]; omega
      | false =>
        simp only [Bool.false_eq_true, if_false]
        split
        · simp only [Option.some.injEq]; omega
        · simp only [reduceCtorEq, false_iff]; omega
    · rw [if_pos (.inr (hany.mpr hd))]
      simp only [reduceCtorEq, false_iff]
      rintro ⟨_, h, _⟩
      exact hd h

theorem atoi_iff (s : Bytes) (n : Int) : atoi s = some n ↔ IsInt s n := by
  have hs : ∀ (sign : Bytes) (ds : Bytes), (∀ c ∈ ds, (48 : UInt8) ≤ c ∧ c ≤ 57) → ds ≠ [] → (sign = [] ∨ sign = go!"+" ∨ sign = go!"-") →
      (sign ++ ds).head? = some 45 ∧ sign = go!"-" ∨ (sign ++ ds).head? = some 43 ∧ sign = go!"+" ∨
      (sign ++ ds).head? ≠ some 45 ∧ (sign ++ ds).head? ≠ some 43 ∧ sign = [] := by
    intro sign ds h h0 hs
    rcases hs with rfl | rfl | rfl
    · right; right
      cases ds with
      | nil => exact absurd rfl h0
      | cons c ds =>
        have := (h c (by simp)).1
        refine ⟨?_, ?_, rfl⟩ <;>
        · simp only [List.nil_append, List.head?_cons, ne_eq, Option.some.injEq]
          rintro rfl
          revert this
          decide
    · exact .inr (.inl ⟨rfl, rfl⟩)
    · exact .inl ⟨rfl, rfl⟩
  unfold atoi IsInt
  split
  · rename_i r
    rw [atoiDigits_iff]
    constructor
    · rintro ⟨h1, h2, h3, h4⟩
      exact ⟨go!"-", r, rfl, .inr (.inr rfl), h1, h2, by simpa using h3, h4⟩
    · rintro ⟨sign, ds, h, hsg, h1, h2, h3, h4⟩
      rcases hs sign ds h2 h1 hsg with ⟨_, rfl⟩ | ⟨h', _⟩ | ⟨h', _, _⟩
      · simp only [List.cons_append, List.nil_append, List.cons.injEq, true_and] at h
        subst h
        exact ⟨h1, h2, by simpa using h3, h4⟩
      · rw [← h] at h'; exact absurd h' (by simp)
      · rw [← h] at h'; exact absurd rfl h'
  · rename_i r
    rw [atoiDigits_iff]
    constructor
    · rintro ⟨h1, h2, h3, h4⟩
      exact ⟨go!"+", r, rfl, .inr (.inl rfl), h1, h2, by simpa using h3, h4⟩
    · rintro ⟨sign, ds, h, hsg, h1, h2, h3, h4⟩
      rcases hs sign ds h2 h1 hsg with ⟨h', _⟩ | ⟨_, rfl⟩ | ⟨_, h', _⟩
      · rw [← h] at h'; exact absurd h' (by simp)
      · simp only [List.cons_append, List.nil_append, List.cons.injEq, true_and] at h
        subst h
        exact ⟨h1, h2, by simpa using h3, h4⟩
      · rw [← h] at h'; exact absurd rfl h'
  · rename_i n45 n43
    rw [atoiDigits_iff]
    constructor
    · rintro ⟨h1, h2, h3, h4⟩
      exact ⟨[], s, rfl, .inl rfl, h1, h2, by simpa using h3, h4⟩
    · rintro ⟨sign, ds, h, hsg, h1, h2, h3, h4⟩
      rcases hs sign ds h2 h1 hsg with ⟨_, rfl⟩ | ⟨_, rfl⟩ | ⟨_, _, rfl⟩
      · exact absurd h (n45 ds)
      · exact absurd h (n43 ds)
      · rw [List.nil_append] at h
        subst h
        exact ⟨h1, h2, by simpa using h3, h4⟩

/-! ## C69 -/

/-- Saving a record in a storage is exactly one call of its library: the payload is the JSON text of the record, the place is
the one that the settings name, and nothing but the payload depends on the record (in particular the text of an SQL
statement does not). `Save` returns nil iff the library accepts. -/
theorem C69_one_delivery (lib : Lib W E) (name : Bytes) (hn : name ∈ storageNames) (c : List (Bytes × Bytes)) :
    ∃ envelope : Bytes → Call, (∀ b, (envelope b).payload = some b ∧ (envelope b).place = placeOf name c ∧ (envelope b).conn = (envelope []).conn) ∧
      ∀ r w, ((connectors lib).saver name (some c) r w).1 = (lib (envelope r.toBytes) w).1 ∧
        (((connectors lib).saver name (some c) r w).2 = none ↔ (lib (envelope r.toBytes) w).2 = none) := by
  have hw : ∀ x : W × Option E, (wrap x).1 = x.1 ∧ ((wrap x).2 = none ↔ x.2 = none) := by
    rintro ⟨w, _ | e⟩ <;> simp [wrap]
  simp only [storageNames, List.mem_cons, List.not_mem_nil, or_false] at hn
  rcases hn with rfl | rfl | rfl | rfl | rfl | rfl
  · exact ⟨fun b => .amqpPublish (amqpUrl c) (setting c (go!"exchange")) (setting c (go!"key")) false false (go!"text/plain") b,
      fun b => ⟨rfl, rfl, rfl⟩, fun r w => hw _⟩
  · exact ⟨fun b => .sqlExec (go!"postgres") (pgDsn c) (go!"INSERT INTO " ++ setting c (go!"table") ++ go!" (point) VALUES ($1)") b,
      fun b => ⟨rfl, rfl, rfl⟩, fun r w => hw _⟩
  · exact ⟨fun b => .natsPublish (setting c (go!"servers")) (natsOptions c) (setting c (go!"topic")) b, fun b => ⟨rfl, rfl, rfl⟩, fun r w => hw _⟩
  · exact ⟨fun b => .tarantoolPut (tarantoolAddr c) _ (setting c (go!"queue")) b, fun b => ⟨rfl, rfl, rfl⟩, fun r w => hw _⟩
  · exact ⟨fun b => .redisPublish _ _ _ (setting c (go!"queue")) b, fun b => ⟨rfl, rfl, rfl⟩, fun r w => hw _⟩
  · exact ⟨fun b => .sqlExec (go!"mysql") (setting c (go!"uri")) (go!"INSERT INTO " ++ setting c (go!"table") ++ go!" (point) VALUES (?)") b,
      fun b => ⟨rfl, rfl, rfl⟩, fun r w => hw _⟩

/-- One record, offered to the loaded storages: the calls made are the deliveries that are due, in order, up to the first that
is refused; all of them if the result is nil; at least one if there is a storage. -/
theorem C69_record (lib : Lib W E) (cfg : List (Bytes × Params)) (hn : ∀ x ∈ cfg, x.1 ∈ storageNames ∧ x.2.isSome) (r : NavRecord)
    (w : W × List Call) :
    ∃ calls, (Repository.save (cfg.map fun x => (connectors (recorder lib)).saver x.1 x.2) r w).1.2 = w.2 ++ calls ∧
      calls.map Call.due <+: dues cfg r ∧
      ((Repository.save (cfg.map fun x => (connectors (recorder lib)).saver x.1 x.2) r w).2 = none → calls.map Call.due = dues cfg r) ∧
      (cfg ≠ [] → calls ≠ []) := by
  induction cfg generalizing w with
  | nil => exact ⟨[], by simp [Repository.save, dues]⟩
  | cons x cfg ih =>
    obtain ⟨hx, hs⟩ := hn x (by simp)
    obtain ⟨c, hc⟩ := Option.isSome_iff_exists.mp hs
    obtain ⟨env, h1, h2⟩ := C69_one_delivery (recorder lib) x.1 hx c
    obtain ⟨g1, g2, _⟩ := h1 r.toBytes
    obtain ⟨k1, k2⟩ := h2 r w
    rw [← hc] at k1 k2
    have hd : (env r.toBytes).due = (placeOf x.1 (x.2.getD []), some r.toBytes) := by
      rw [Call.due, g1, g2, hc, Option.getD_some]
    simp only [List.map_cons, Repository.save]
    rcases hsv : (connectors (recorder lib)).saver x.1 x.2 r w with ⟨w1, e⟩
    rw [hsv] at k1 k2
    simp only at k1 k2
    cases e with
    | some e =>
      refine ⟨[env r.toBytes], ?_, ?_, ?_, by simp⟩
      · simp only [k1, recorder]
      · simp only [List.map_cons, List.map_nil, dues, hd]
        exact List.cons_prefix_cons.mpr ⟨rfl, List.nil_prefix⟩
      · intro h; cases h
    | none =>
      obtain ⟨calls, i1, i2, i3, _⟩ := ih (fun y hy => hn y (by simp [hy])) w1
      refine ⟨env r.toBytes :: calls, ?_, ?_, ?_, by simp⟩
      · simp only
        rw [i1, k1]
        simp [recorder]
      · simp only [List.map_cons, dues, hd]
        exact List.cons_prefix_cons.mpr ⟨rfl, i2⟩
      · intro h
        simp only [List.map_cons, i3 h, dues, hd]

/-- Only settings that are not nil let a storage start. -/
theorem init_settings (lib : Lib W E) (name : Bytes) (hn : name ∈ storageNames) (p : Params) (w : W)
    (h : ((connectors lib).init name p w).2 = none) : p.isSome := by
  cases p with
  | some _ => rfl
  | none =>
    simp only [storageNames, List.mem_cons, List.not_mem_nil, or_false] at hn
    rcases hn with rfl | rfl | rfl | rfl | rfl | rfl <;> (simp [connectors] at h; cases h)

/-- A successful start leaves only settings that are not nil, and supported names. -/
theorem loaded_ok (lib : Lib W E) (cfg : List (Bytes × Params)) (w : W)
    (h : (loadStorages (connectors lib) [] w cfg).2.2 = none) : ∀ x ∈ cfg, x.1 ∈ storageNames ∧ x.2.isSome := by
  intro x hx
  obtain ⟨_, h⟩ := (C54_succeeds_iff _ _ _ _).mp h
  obtain ⟨i, hi, rfl⟩ := List.getElem_of_mem hx
  obtain ⟨h1, h2⟩ := h i hi _ (List.getElem?_eq_getElem hi)
  exact ⟨h1, init_settings lib _ h1 _ _ h2⟩

/-- Saving the records of a trace: a chunk of calls for each attempt, in order. -/
theorem runEffs_calls {stores : List (Saver (W × List Call) (ConnErr E))} {P : List Call → NavRecord × Option (ConnErr E) → Prop}
    (hP : ∀ r w, ∃ calls, (Repository.save stores r w).1.2 = w.2 ++ calls ∧ P calls (r, (Repository.save stores r w).2)) (effs : List Effect)
    (w : W × List Call) :
    ∃ chunks : List (List Call), (runEffs stores w effs).1.2 = w.2 ++ chunks.flatten ∧
      List.Forall₂ P chunks (attempts (runEffs stores w effs).2) := by
  induction effs generalizing w with
  | nil => exact ⟨[], by simp [runEffs], by simp [runEffs, attempts]⟩
  | cons x effs ih =>
    by_cases hx : ∃ r, x = .save r
    · obtain ⟨r, rfl⟩ := hx
      obtain ⟨calls, h1, h2⟩ := hP r w
      rcases hsv : Repository.save stores r w with ⟨w1, err⟩
      rw [hsv] at h1 h2
      simp only [runEffs, hsv]
      obtain ⟨chunks, i1, i2⟩ := ih w1
      refine ⟨calls :: chunks, ?_, ?_⟩
      · simp only at h1 ⊢
        rw [i1, h1]
        simp
      · exact List.Forall₂.cons h2 i2
    · obtain ⟨chunks, i1, i2⟩ := ih w
      refine ⟨chunks, ?_, ?_⟩
      · cases x <;> first | exact absurd ⟨_, rfl⟩ hx | exact i1
      · cases x <;> first | exact absurd ⟨_, rfl⟩ hx | exact i2

/-- The whole receiver, with storages loaded from a configuration and any interleaving of any number of connections: the
calls of the libraries after the start are, for each attempt to save a record, in the order of the log, the deliveries that
are due up to the first refused one, and all of them if the attempt succeeded. -/
theorem C69_every_attempt (lib : Lib W E) (cfg : List (Bytes × Params)) (w0 : W × List Call) (stores : List (Saver (W × List Call) (ConnErr E)))
    (w1 : W × List Call) (hl : loadStorages (connectors (recorder lib)) [] w0 cfg = (stores, w1, none))
    (env : Env) (ce : Nat → ConnEnv) (evs : List Event) (s : System (W × List Call) (ConnErr E))
    (hs : System.exec env ce stores { world := w1 } evs = some s) :
    ∃ chunks : List (List Call), s.world.2 = w1.2 ++ chunks.flatten ∧
      List.Forall₂ (fun (calls : List Call) (a : NavRecord × Option (ConnErr E)) => calls.map Call.due <+: dues cfg a.1 ∧
        (a.2 = none → calls.map Call.due = dues cfg a.1) ∧ calls ≠ []) chunks (attempts (s.log.map (·.2))) := by
  have hok : (loadStorages (connectors (recorder lib)) [] w0 cfg).2.2 = none := by rw [hl]
  have hst := C54_adds_each_once _ _ _ _ hok
  rw [hl] at hst
  simp only [List.nil_append] at hst
  have hne := ((C54_succeeds_iff _ _ _ _).mp hok).1
  have hser := C55_storages_serial env ce stores w1 evs s hs
  subst hst
  obtain ⟨chunks, h1, h2⟩ := runEffs_calls
    (P := fun (calls : List Call) (a : NavRecord × Option (ConnErr E)) => calls.map Call.due <+: dues cfg a.1 ∧
        (a.2 = none → calls.map Call.due = dues cfg a.1) ∧ (cfg ≠ [] → calls ≠ []))
    (C69_record lib cfg (loaded_ok _ cfg w0 hok)) (s.log.map fun x => x.2.effect) w1
  rw [hser] at h1 h2
  exact ⟨chunks, h1, h2.imp (fun _ _ h => ⟨h.1, h.2.1, h.2.2 hne⟩)⟩

theorem save_accepted (lib : Lib W E) (hok : ∀ c w, (lib c w).2 = none) (cfg : List (Bytes × Params))
    (hn : ∀ x ∈ cfg, x.1 ∈ storageNames ∧ x.2.isSome) (r : NavRecord) (w : W × List Call) :
    (Repository.save (cfg.map fun x => (connectors (recorder lib)).saver x.1 x.2) r w).2 = none := by
  induction cfg generalizing w with
  | nil => rfl
  | cons x cfg ih =>
    obtain ⟨hx, hs⟩ := hn x (by simp)
    obtain ⟨c, hc⟩ := Option.isSome_iff_exists.mp hs
    obtain ⟨env, h1, h2⟩ := C69_one_delivery (recorder lib) x.1 hx c
    obtain ⟨_, k2⟩ := h2 r w
    rw [← hc] at k2
    have k3 := k2.mpr (hok _ _)
    simp only [List.map_cons, Repository.save]
    rcases hsv : (connectors (recorder lib)).saver x.1 x.2 r w with ⟨w1, e⟩
    rw [hsv] at k3
    simp only at k3
    subst k3
    exact ih (fun y hy => hn y (by simp [hy])) w1

theorem attempts_accepted (lib : Lib W E) (hok : ∀ c w, (lib c w).2 = none) (cfg : List (Bytes × Params))
    (hn : ∀ x ∈ cfg, x.1 ∈ storageNames ∧ x.2.isSome) (effs : List Effect) (w : W × List Call) :
    attempts (runEffs (cfg.map fun x => (connectors (recorder lib)).saver x.1 x.2) w effs).2 = (saves effs).map (·, none) := by
  induction effs generalizing w with
  | nil => rfl
  | cons x effs ih =>
    by_cases hx : ∃ r, x = .save r
    · obtain ⟨r, rfl⟩ := hx
      have h := save_accepted lib hok cfg hn r w
      rcases hsv : Repository.save (cfg.map fun x => (connectors (recorder lib)).saver x.1 x.2) r w with ⟨w1, err⟩
      rw [hsv] at h
      simp only at h
      subst h
      simp only [runEffs, hsv]
      exact congrArg (_ :: ·) (ih w1)
    · cases x <;> first | exact absurd ⟨_, rfl⟩ hx | exact ih w

/-- If the libraries accept everything, then each record saved has been delivered to each configured storage exactly once,
in the order in which the records were saved. -/
theorem C69_all_delivered (lib : Lib W E) (hok : ∀ c w, (lib c w).2 = none) (cfg : List (Bytes × Params)) (w0 : W × List Call)
    (stores : List (Saver (W × List Call) (ConnErr E)))
    (w1 : W × List Call) (hl : loadStorages (connectors (recorder lib)) [] w0 cfg = (stores, w1, none))
    (env : Env) (ce : Nat → ConnEnv) (evs : List Event) (s : System (W × List Call) (ConnErr E))
    (hs : System.exec env ce stores { world := w1 } evs = some s) :
    ∃ calls : List Call, s.world.2 = w1.2 ++ calls ∧
      calls.map Call.due = (saves (s.log.map fun x => x.2.effect)).flatMap (dues cfg) := by
  obtain ⟨chunks, h1, h2⟩ := C69_every_attempt lib cfg w0 stores w1 hl env ce evs s hs
  refine ⟨chunks.flatten, h1, ?_⟩
  have hld : (loadStorages (connectors (recorder lib)) [] w0 cfg).2.2 = none := by rw [hl]
  have hst := C54_adds_each_once _ _ _ _ hld
  rw [hl] at hst
  simp only [List.nil_append] at hst
  have hser := C55_storages_serial env ce stores w1 evs s hs
  have ha := attempts_accepted lib hok cfg (loaded_ok _ cfg w0 hld) (s.log.map fun x => x.2.effect) w1
  rw [← hst, hser] at ha
  simp only at ha
  rw [ha] at h2
  generalize saves (s.log.map fun x => x.2.effect) = recs at h2
  clear h1 ha hser
  induction recs generalizing chunks with
  | nil => cases h2; rfl
  | cons r recs ih =>
    cases h2 with
    | cons h h2 =>
      rw [List.flatten_cons, List.map_append, List.flatMap_cons, ih _ h2, h.2.1 rfl]

/-- What holds of the records saved on a connection by itself holds of the records saved by the receiver. -/
theorem exec_saves {env : Env} {ce : Nat → ConnEnv} {stores : List (Saver W E)} {w : W} {evs : List Event} {s : System W E}
    (hs : System.exec env ce stores { world := w } evs = some s) {P : NavRecord → Prop}
    (hP : ∀ k input e, ∀ r ∈ saves (handleConn env (ce k) input e), P r) : ∀ r ∈ saves (s.log.map fun x => x.2.effect), P r := by
  have hm : ∀ (r : NavRecord) (l : List Effect), r ∈ saves l ↔ .save r ∈ l := by
    intro r l
    simp only [saves, List.mem_filterMap]
    constructor
    · rintro ⟨x, hx, h⟩
      cases x <;> simp at h
      subst h
      exact hx
    · exact fun h => ⟨_, h, rfl⟩
  intro r hr
  rw [hm, List.mem_map] at hr
  obtain ⟨⟨k, o⟩, ho, he⟩ := hr
  have h1 : Effect.save r ∈ doneBy s k := by
    rw [doneBy, List.mem_map]
    exact ⟨(k, o), List.mem_filter.mpr ⟨ho, by simp⟩, he⟩
  exact hP k _ _ r ((hm _ _).mpr ((C55_isolated env ce stores w evs s hs k).subset h1))

/-- What is delivered reads back, as JSON, as exactly the records saved, one copy per storage. -/
theorem C69_reads_back (lib : Lib W E) (hok : ∀ c w, (lib c w).2 = none) (cfg : List (Bytes × Params)) (w0 : W × List Call)
    (stores : List (Saver (W × List Call) (ConnErr E)))
    (w1 : W × List Call) (hl : loadStorages (connectors (recorder lib)) [] w0 cfg = (stores, w1, none))
    (env : Env) (ce : Nat → ConnEnv) (evs : List Event) (s : System (W × List Call) (ConnErr E))
    (hs : System.exec env ce stores { world := w1 } evs = some s) :
    ∃ calls : List Call, s.world.2 = w1.2 ++ calls ∧
      calls.map (fun c => c.payload.bind Json.readNav) =
        (saves (s.log.map fun x => x.2.effect)).flatMap fun r => List.replicate cfg.length (some r) := by
  obtain ⟨calls, h1, h2⟩ := C69_all_delivered lib hok cfg w0 stores w1 hl env ce evs s hs
  refine ⟨calls, h1, ?_⟩
  have hR : ∀ r ∈ saves (s.log.map fun x => x.2.effect), Json.readNav r.toBytes = some r :=
    exec_saves hs fun k input e => conn_saves (fun i c b => C66_saved_lossless env _ c _) input e
  have h3 := congrArg (List.map fun x : List Bytes × Option Bytes => x.2.bind Json.readNav) h2
  rw [List.map_map] at h3
  refine h3.trans ?_
  generalize saves (s.log.map fun x => x.2.effect) = recs at hR
  clear h1 h2 h3
  induction recs with
  | nil => rfl
  | cons r recs ih =>
    rw [List.flatMap_cons, List.map_append, ih (fun x hx => hR x (by simp [hx])), List.flatMap_cons]
    congr 1
    simp only [dues, List.map_map]
    rw [List.eq_replicate_iff]
    refine ⟨by simp, ?_⟩
    intro b hb
    obtain ⟨x, _, rfl⟩ := List.mem_map.mp hb
    exact hR r (by simp)

/-! ## C70 -/

/-- A connector starts exactly if its settings are usable and its connection can be opened, which it tries once. -/
theorem C70_starts_iff (lib : Lib W E) (name : Bytes) (hn : name ∈ storageNames) (c : List (Bytes × Bytes)) :
    ∃ calls, Opens name calls ∧ ∀ w, (((connectors lib).init name (some c) w).2 = none ↔ Usable name c ∧ Succeed lib calls w) ∧
      (((connectors lib).init name (some c) w).2 = none → ((connectors lib).init name (some c) w).1 = after lib calls w) := by
  have hw : ∀ x : W × Option E, (wrap x).1 = x.1 ∧ ((wrap x).2 = none ↔ x.2 = none) := by
    rintro ⟨w, _ | e⟩ <;> simp [wrap]
  simp only [storageNames, List.mem_cons, List.not_mem_nil, or_false] at hn
  rcases hn with rfl | rfl | rfl | rfl | rfl | rfl
  · refine ⟨_, .rabbitmq (amqpUrl c), fun w => ?_⟩
    have hu : Usable (go!"rabbitmq") c := by simp [Usable]
    show ((amqpInit lib (some c) w).2 = none ↔ _) ∧ ((amqpInit lib (some c) w).2 = none → (amqpInit lib (some c) w).1 = _)
    simp only [amqpInit, Succeed, after, List.foldl_cons, List.foldl_nil, and_true, hu, true_and]
    rcases lib (.amqpDial (amqpUrl c)) w with ⟨w1, _ | e⟩
    · simp [hw]
    · simp
  · refine ⟨_, .postgres (pgDsn c), fun w => ?_⟩
    have hu : Usable (go!"postgresql") c := by simp [Usable]
    show ((pgInit lib (some c) w).2 = none ↔ _) ∧ ((pgInit lib (some c) w).2 = none → (pgInit lib (some c) w).1 = _)
    simp only [pgInit, Succeed, after, List.foldl_cons, List.foldl_nil, and_true, hu, true_and]
    rcases lib (.sqlOpen (go!"postgres") (pgDsn c)) w with ⟨w1, _ | e⟩
    · simp [hw]
    · simp
  · refine ⟨_, .nats (setting c (go!"servers")) (natsOptions c), fun w => ?_⟩
    have hu : Usable (go!"nats") c := by simp [Usable]
    show ((natsInit lib (some c) w).2 = none ↔ _) ∧ ((natsInit lib (some c) w).2 = none → (natsInit lib (some c) w).1 = _)
    simp only [natsInit, Succeed, after, List.foldl_cons, List.foldl_nil, and_true, hu, true_and, hw, implies_true, iff_self]
  · refine ⟨_, .tarantool (tarantoolAddr c) (tarantoolOpts c ((atoi (setting c (go!"max_recons"))).getD 0)
      ((atoi (setting c (go!"timeout"))).getD 0) ((atoi (setting c (go!"reconnect"))).getD 0)), fun w => ?_⟩
    have hu : Usable (go!"tarantool_queue") c ↔ (∃ n, atoi (setting c (go!"max_recons")) = some n) ∧
        (∃ n, atoi (setting c (go!"timeout")) = some n) ∧ ∃ n, atoi (setting c (go!"reconnect")) = some n := by
      simp only [atoi_iff]
      rw [Usable, if_neg (by decide), if_pos rfl]
    show ((tarantoolInit lib (some c) w).2 = none ↔ _) ∧ ((tarantoolInit lib (some c) w).2 = none → (tarantoolInit lib (some c) w).1 = _)
    simp only [hu, tarantoolInit, Succeed, after, List.foldl_cons, List.foldl_nil, and_true]
    cases atoi (setting c (go!"max_recons")) with
    | none => simp
    | some a =>
      cases atoi (setting c (go!"timeout")) with
      | none => simp
      | some b =>
        cases atoi (setting c (go!"reconnect")) with
        | none => simp
        | some d => simp [hw]
  · refine ⟨_, .redis, fun w => ?_⟩
    have hu : Usable (go!"redis") c ↔ (lookup c (go!"server")).isSome ∧ (∃ n, atoi (redisDb c true) = some n) ∧ (lookup c (go!"queue")).isSome := by
      simp only [atoi_iff]
      rw [Usable, if_pos rfl]
      rfl
    show ((redisInit (some c) w).2 = none ↔ _) ∧ ((redisInit (some c) w).2 = none → (redisInit (some c) w).1 = _)
    simp only [hu, redisInit, Succeed, after, List.foldl_nil, and_true]
    cases lookup c (go!"server") with
    | none => simp
    | some a =>
      cases atoi (redisDb c true) with
      | none => simp
      | some b =>
        cases lookup c (go!"queue") with
        | none => simp
        | some d => simp
  · refine ⟨_, .mysql (setting c (go!"uri")), fun w => ?_⟩
    have hu : Usable (go!"mysql") c := by simp [Usable]
    show ((myInit lib (some c) w).2 = none ↔ _) ∧ ((myInit lib (some c) w).2 = none → (myInit lib (some c) w).1 = _)
    simp only [myInit, Succeed, after, List.foldl_cons, List.foldl_nil, and_true, hu, true_and]
    rcases lib (.sqlOpen (go!"mysql") (setting c (go!"uri"))) w with ⟨w1, _ | e⟩
    · simp [hw]
    · simp

/-- Without settings (`nil`) no connector starts, and none tries to connect. -/
theorem C70_nil_config (lib : Lib W E) (name : Bytes) (hn : name ∈ storageNames) (w : W) :
    (connectors lib).init name none w = (w, some .nilConfig) := by
  simp only [storageNames, List.mem_cons, List.not_mem_nil, or_false] at hn
  rcases hn with rfl | rfl | rfl | rfl | rfl | rfl <;> rfl

/-- Records are delivered over the connection that was opened at the start, and over no other. -/
theorem C70_same_connection (lib : Lib W E) (name : Bytes) (hn : name ∈ storageNames) (c : List (Bytes × Bytes)) (w w' : W × List Call)
    (r : NavRecord) (h : ((connectors (recorder lib)).init name (some c) w).2 = none) :
    ∃ opened d, ((connectors (recorder lib)).init name (some c) w).1.2 = w.2 ++ opened ∧ Opens name opened ∧
      ((connectors (recorder lib)).saver name (some c) r w').1.2 = w'.2 ++ [d] ∧ ∀ o ∈ opened, o.conn = d.conn := by
  have hafter : ∀ calls w, (after (recorder lib) calls w).2 = w.2 ++ calls := by
    intro calls
    induction calls with
    | nil => intro w; simp [after]
    | cons x xs ih =>
      intro w
      have := ih (recorder lib x w).1
      simp only [after, List.foldl_cons] at this ⊢
      rw [this]
      simp [recorder]
  simp only [storageNames, List.mem_cons, List.not_mem_nil, or_false] at hn
  have fin : ∀ (d : Call) (opened : List Call), Opens name opened →
      ((connectors (recorder lib)).init name (some c) w).1 = after (recorder lib) opened w →
      ((connectors (recorder lib)).saver name (some c) r w') = wrap (recorder lib d w') → (∀ o ∈ opened, o.conn = d.conn) →
      ∃ opened d, ((connectors (recorder lib)).init name (some c) w).1.2 = w.2 ++ opened ∧ Opens name opened ∧
        ((connectors (recorder lib)).saver name (some c) r w').1.2 = w'.2 ++ [d] ∧ ∀ o ∈ opened, o.conn = d.conn := by
    intro d opened h1 h2 h3 h4
    refine ⟨opened, d, ?_, h1, ?_, h4⟩
    · rw [h2, hafter]
    · rw [h3]; rfl
  rcases hn with rfl | rfl | rfl | rfl | rfl | rfl
  · refine fin (.amqpPublish (amqpUrl c) _ _ _ _ _ _) _ (.rabbitmq (amqpUrl c)) ?_ rfl (by simp [Call.conn])
    replace h : (amqpInit (recorder lib) (some c) w).2 = none := h
    show (amqpInit (recorder lib) (some c) w).1 = _
    simp only [amqpInit, after, List.foldl_cons, List.foldl_nil] at h ⊢
    rcases hd : recorder lib (.amqpDial (amqpUrl c)) w with ⟨w1, _ | e⟩
    · rfl
    · rw [hd] at h; cases h
  · refine fin (.sqlExec (go!"postgres") (pgDsn c) _ _) _ (.postgres (pgDsn c)) ?_ rfl (by simp [Call.conn])
    replace h : (pgInit (recorder lib) (some c) w).2 = none := h
    show (pgInit (recorder lib) (some c) w).1 = _
    simp only [pgInit, after, List.foldl_cons, List.foldl_nil] at h ⊢
    rcases hd : recorder lib (.sqlOpen (go!"postgres") (pgDsn c)) w with ⟨w1, _ | e⟩
    · rfl
    · rw [hd] at h; cases h
  · exact fin (.natsPublish (setting c (go!"servers")) (natsOptions c) _ _) _ (.nats _ _) rfl rfl (by simp [Call.conn])
  · refine fin (.tarantoolPut (tarantoolAddr c) (tarantoolOpts c ((atoi (setting c (go!"max_recons"))).getD 0)
      ((atoi (setting c (go!"timeout"))).getD 0) ((atoi (setting c (go!"reconnect"))).getD 0)) _ _) _ (.tarantool _ _) ?_ rfl
      (fun o ho => by rw [List.mem_singleton] at ho; subst ho; rfl)
    replace h : (tarantoolInit (recorder lib) (some c) w).2 = none := h
    show (tarantoolInit (recorder lib) (some c) w).1 = _
    simp only [tarantoolInit, after, List.foldl_cons, List.foldl_nil] at h ⊢
    cases h1 : atoi (setting c (go!"max_recons")) with
    | none => rw [h1] at h; cases h
    | some a =>
      cases h2 : atoi (setting c (go!"timeout")) with
      | none => rw [h1, h2] at h; cases h
      | some b =>
        cases h3 : atoi (setting c (go!"reconnect")) with
        | none => rw [h1, h2, h3] at h; cases h
        | some d => rfl
  · refine fin (.redisPublish _ _ _ _ _) [] .redis ?_ rfl (by simp)
    replace h : (redisInit (some c) w).2 = none := h
    show (redisInit (some c) w).1 = _
    simp only [redisInit, after, List.foldl_nil] at h ⊢
    cases h1 : lookup c (go!"server") with
    | none => rfl
    | some a =>
      cases h2 : atoi (redisDb c true) with
      | none => rfl
      | some b =>
        cases h3 : lookup c (go!"queue") with
        | none => rfl
        | some d => rfl
  · refine fin (.sqlExec (go!"mysql") (setting c (go!"uri")) _ _) _ (.mysql (setting c (go!"uri"))) ?_ rfl (by simp [Call.conn])
    replace h : (myInit (recorder lib) (some c) w).2 = none := h
    show (myInit (recorder lib) (some c) w).1 = _
    simp only [myInit, after, List.foldl_cons, List.foldl_nil] at h ⊢
    rcases hd : recorder lib (.sqlOpen (go!"mysql") (setting c (go!"uri"))) w with ⟨w1, _ | e⟩
    · rfl
    · rw [hd] at h; cases h

/-- C70 is false for Redis, twice. The default for the database number that `Init` provides for is not applied: settings
without `db` are refused. -/
theorem C70_false (lib : Lib W E) (w : W) : lookup [(go!"server", go!"localhost:6379"), (go!"queue", go!"egts")] (go!"db") = none ∧
    ((connectors lib).init (go!"redis") (some [(go!"server", go!"localhost:6379"), (go!"queue", go!"egts")]) w).2 = some .badDb :=
  ⟨by decide, rfl⟩

/-- And a Redis server that cannot be reached goes unnoticed: `Init` calls nothing and succeeds, whatever the library would
say, although then no record can be saved. -/
theorem C70_false_unreachable (e : E) (w : W) :
    ((connectors (fun _ w => (w, some e))).init (go!"redis")
      (some [(go!"server", go!"localhost:6379"), (go!"db", go!"0"), (go!"queue", go!"egts")]) w) = (w, none) ∧
    ∀ r, ((connectors (fun _ w => (w, some e))).saver (go!"redis")
      (some [(go!"server", go!"localhost:6379"), (go!"db", go!"0"), (go!"queue", go!"egts")]) r w).2 = some (.lib e) :=
  ⟨rfl, fun _ => rfl⟩

/-! ## Examples -/

/-- settings of all six storages -/
def sixStorages : List (Bytes × Params) :=
  [(go!"rabbitmq", some [(go!"host", go!"localhost"), (go!"port", go!"5672"), (go!"user", go!"guest"), (go!"password", go!"guest"), (go!"exchange", go!"receiver"),
     (go!"key", go!"egts")]),
   (go!"postgresql", some [(go!"host", go!"localhost"), (go!"port", go!"5432"), (go!"user", go!"postgres"), (go!"password", go!"postgres"),
     (go!"database", go!"receiver"), (go!"table", go!"points"), (go!"sslmode", go!"disable")]),
   (go!"nats", some [(go!"servers", go!"nats://localhost:1222"), (go!"topic", go!"receiver")]),
   (go!"tarantool_queue", some [(go!"host", go!"localhost"), (go!"port", go!"3301"), (go!"max_recons", go!"5"), (go!"timeout", go!"1"), (go!"reconnect", go!"1"),
     (go!"queue", go!"points")]),
   (go!"redis", some [(go!"server", go!"localhost:6379"), (go!"db", go!"0"), (go!"queue", go!"egts")]),
   (go!"mysql", some [(go!"uri", go!"user:password@/database"), (go!"table", go!"points")])]

/-- Settings of all six storages are loaded, by libraries that accept everything, with eight calls. -/
example : ∃ stores w1, loadStorages (connectors (recorder (fun (_ : Call) () => ((), (none : Option Unit))))) [] ((), []) sixStorages =
    (stores, w1, none) ∧ stores.length = 6 ∧ w1.2.length = 8 := ⟨_, _, rfl, rfl, rfl⟩

set_option maxRecDepth 40000 in
/-- Two connections, six storages: the one record saved is delivered six times. -/
example (env : Env) : ∃ stores w1 s,
    loadStorages (connectors (recorder (fun (_ : Call) () => ((), (none : Option Unit))))) [] ((), []) sixStorages = (stores, w1, none) ∧
    System.exec env (fun _ => { clock := fun _ => 9, spare := fun _ => [] }) stores { world := w1 } twoConns = some s ∧
    s.world.2.length = 14 ∧ (saves (s.log.map fun x => x.2.effect)).length = 1 := by
  refine ⟨_, _, _, rfl, by with_unfolding_all rfl, ?_⟩
  with_unfolding_all exact ⟨rfl, rfl⟩

example : Usable (go!"redis") [(go!"server", go!"localhost:6379"), (go!"db", go!"-0"), (go!"queue", go!"egts")] := by
  rw [Usable, if_pos rfl]
  exact ⟨rfl, ⟨0, (atoi_iff _ _).mp (by decide +kernel)⟩, rfl⟩

example : ¬ Usable (go!"tarantool_queue") [(go!"max_recons", go!"5"), (go!"timeout", go!"1s"), (go!"reconnect", go!"1")] := by
  rw [Usable, if_neg (by decide), if_pos rfl]
  rintro ⟨_, ⟨n, h⟩, _⟩
  rw [← atoi_iff] at h
  have : atoi (setting [(go!"max_recons", go!"5"), (go!"timeout", go!"1s"), (go!"reconnect", go!"1")] (go!"timeout")) = none := by decide +kernel
  rw [this] at h
  cases h

end Egts
