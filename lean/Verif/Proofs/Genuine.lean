import Verif.Spec.Genuine
import Verif.Props.Program

/-! # Proofs about what may be delivered at all -/

namespace Egts

variable {W E : Type}

/-! ## Connections -/

theorem stop_saves {input : Bytes} {e : End} {effs : List Effect} (h : readPacket input e = .stop effs) : saves effs = [] := by
  unfold readPacket at h
  simp only at h
  split at h
  · split at h
    · injection h with h; subst h; rfl
    · injection h with h; subst h; rfl
    · split at h <;> (injection h with h; subst h; rfl)
  · split at h
    · injection h with h; subst h; rfl
    · split at h
      · split at h <;> (injection h with h; subst h; rfl)
      · cases h

theorem made_from {env : Env} {ce : ConnEnv} {e : End} {r : NavRecord} (n : Nat) (frames : List Bytes) (input : Bytes) (hn : input.length < n)
    (hf : ∀ g ∈ frames, WellFramed g)
    (h : r ∈ saves (handleFrom env ce e frames.length (lastOr (idsBefore env ce frames frames.length) 0) input)) :
    MadeFrom env ce (frames.flatten ++ input) r := by
  induction n generalizing frames input with
  | zero => omega
  | succ n ih =>
    rw [handleFrom_eq] at h
    cases hr : readPacket input e with
    | stop effs => rw [hr] at h; simp only [stop_saves hr] at h; cases h
    | packet b rest =>
      obtain ⟨hw, rfl⟩ := readPacket_packet hr
      rw [hr] at h
      simp only at h
      have own : r ∈ saves (handlePacket env (ce.clock frames.length) (lastOr (idsBefore env ce frames frames.length) 0) ⟨b, ce.spare frames.length⟩).effs →
          MadeFrom env ce (frames.flatten ++ (b ++ rest)) r := by
        intro h
        rw [handlePacket_saves] at h
        split at h
        · rename_i pid recs ha
          obtain ⟨p, hp, rfl⟩ := (accepted_iff _ _ _ _).mp ha
          exact ⟨frames, b, rest, p, recs, by simp, hf, hw, hp, h⟩
        · cases h
      split at h
      · exact own h
      · rename_i c' hc
        rw [saves_append, List.mem_append] at h
        rcases h with h | h
        · exact own h
        · have hp : Package.decode env none {} ⟨b, ce.spare frames.length⟩ ≠ .panic := by
            intro hp
            rw [(handlePacket_client _ _ _ _).mpr hp] at hc
            cases hc
          have hc2 := handlePacket_ids env (ce.clock frames.length) (lastOr (idsBefore env ce frames frames.length) 0) _ hp
          rw [hc] at hc2
          have hids : idsBefore env ce (frames ++ [b]) (frames ++ [b]).length =
              idsBefore env ce frames frames.length ++ packetIds env ⟨b, ce.spare frames.length⟩ := by
            unfold idsBefore
            rw [List.take_length, List.take_length, List.zipIdx_append, List.flatMap_append]
            simp
          have hw' := hw.2.1
          rw [List.length_append] at hn
          have := ih (frames ++ [b]) rest (by omega) (by
            intro g hg
            rcases List.mem_append.mp hg with hg | hg
            · exact hf g hg
            · rw [List.mem_singleton] at hg; subst hg; exact hw) (by
            rw [hids, ← lastOr_lastOr, ← Option.some.inj hc2]
            simpa using h)
          simpa using this

theorem conn_made {env : Env} {ce : ConnEnv} {input : Bytes} {e : End} {r : NavRecord} (h : r ∈ saves (handleConn env ce input e)) :
    MadeFrom env ce input r := by
  have := made_from (env := env) (ce := ce) (e := e) (r := r) _ [] input (Nat.lt_succ_self _) (by simp) h
  simpa using this

theorem MadeFrom.ne_nil {env : Env} {ce : ConnEnv} {input : Bytes} {r : NavRecord} (h : MadeFrom env ce input r) : input ≠ [] := by
  obtain ⟨frames, f, tail, p, recs, rfl, _, hw, _⟩ := h
  intro h0
  have := hw.2.1
  have := congrArg List.length h0
  simp only [List.length_append, List.length_nil] at this
  omega

/-! ## Storages -/

/-- What a storage does: one call that delivers the record, or none. -/
def Emits (D : NavRecord → Call → Prop) (st : Saver (W × List Call) E) : Prop :=
  (∃ e : NavRecord → Call, (∀ r, r.Ok → D r (e r)) ∧ ∀ r w, (st r w).1.2 = w.2 ++ [e r]) ∨ ∀ r w, (st r w).1.2 = w.2

theorem served_calls {stores : List (Saver (W × List Call) E)} {D : Nat → NavRecord → Call → Prop}
    (hst : ∀ i st, stores[i]? = some st → Emits (D i) st) {w w' : W × List Call} {l : List (Nat × NavRecord × Nat × Option E)}
    (hok : ∀ x ∈ l, x.2.1.Ok) (h : Served stores w l w') :
    ∃ (m : List (Nat × NavRecord × Nat × Option E)) (calls : List Call), m.Sublist l ∧ w'.2 = w.2 ++ calls ∧
      List.Forall₂ (fun c x => D x.2.2.1 x.2.1 c) calls m := by
  induction l generalizing w with
  | nil => cases h; exact ⟨[], [], .slnil, by simp, .nil⟩
  | cons x l ih =>
    obtain ⟨k, r, i, e⟩ := x
    obtain ⟨st, h1, _, h3⟩ := h
    obtain ⟨m, calls, i1, i2, i3⟩ := ih (fun x hx => hok x (List.mem_cons_of_mem _ hx)) h3
    rcases hst i st h1 with ⟨f, f1, f2⟩ | f
    · exact ⟨(k, r, i, e) :: m, f r :: calls, i1.cons_cons _, by rw [i2, f2]; simp, .cons (f1 r (hok _ List.mem_cons_self)) i3⟩
    · exact ⟨m, calls, i1.cons _, by rw [i2, f], i3⟩

theorem IsAttempt.at {n i : Nat} {offs : List (NavRecord × Nat × Option E)} {a : NavRecord × Option E} (h : IsAttempt n offs a) :
    ((offs.filter fun x => x.2.1 = i).map (·.1)).Sublist [a.1] := by
  have up : ∀ (r : NavRecord) (j : Nat), ((acceptedUpTo (E := E) r j).filter fun x => x.2.1 = i).map (·.1) = if i < j then [r] else [] := by
    intro r j
    induction j with
    | zero => rfl
    | succ j ih =>
      rw [acceptedUpTo_succ, List.filter_append, List.map_append, ih]
      by_cases h1 : j = i
      · subst h1; simp
      · by_cases h2 : i < j
        · simp [h1, h2, Nat.lt_succ_of_lt h2]
        · have : ¬ i < j + 1 := by omega
          simp [h1, h2, this]
  unfold IsAttempt at h
  split at h
  · rw [h, up]
    split <;> simp
  · obtain ⟨j, _, h⟩ := h
    rw [h, List.filter_append, List.map_append, up]
    by_cases h1 : j = i
    · subst h1; simp
    · by_cases h2 : i < j <;> simp [h1, h2]

theorem chunks_at {n i : Nat} {chunks : List (List (NavRecord × Nat × Option E))} {as : List (NavRecord × Option E)}
    (h : List.Forall₂ (IsAttempt n) chunks as) : ((chunks.flatten.filter fun x => x.2.1 = i).map (·.1)).Sublist (as.map (·.1)) := by
  induction h with
  | nil => simp
  | cons h _ ih =>
    rw [List.flatten_cons, List.filter_append, List.map_append, List.map_cons]
    exact h.at.append ih

/-- What connection `k` offers to storage `i`: at most what a receiver serving this connection alone would save, in order. -/
theorem offers_at {env : Env} {ce : Nat → ConnEnv} {stores : List (Saver W E)} {w : W} {evs : List Event} {s : Fine W E}
    (hs : Fine.exec env ce stores { world := w } evs = some s) (k i : Nat) :
    (((s.offersOf k).filter fun x => x.2.1 = i).map (·.1)).Sublist (saves (handleConn env (ce k) (receivedOn k evs) (endingOf k evs))) := by
  obtain ⟨h1, chunks, begun, h2, h3, h4⟩ := C88_attempts env ce stores w evs s hs k
  have hp : ∀ {a b : List Effect}, a <+: b → (saves a).Sublist (saves b) := by
    rintro a b ⟨t, rfl⟩
    rw [saves_append]
    exact List.sublist_append_left _ _
  rw [h2, List.filter_append, List.map_append]
  have h5 := chunks_at (i := i) h3
  rw [h1] at h5
  rcases h4 with rfl | ⟨r, j, hj, rfl, h4⟩
  · simp only [List.filter_nil, List.map_nil, List.append_nil]
    exact h5.trans (hp (C88_isolated env ce stores w evs s hs k))
  · refine List.Sublist.trans ?_ (hp h4)
    rw [saves_append]
    exact h5.append (IsAttempt.at (E := E) (n := j) (a := (r, none)) (by simp [IsAttempt]))

/-! ## The start -/

theorem configNew_nodup {doc : Option Yaml} {s : Settings} (h : configNew doc = some s) : (s.store.map (·.1)).Nodup := by
  have key : ∀ (ms : List (Bytes × Yaml)) (s0 : Settings), (s0.store.map (·.1)).Nodup → Settings.read ms s0 = some s → (s.store.map (·.1)).Nodup := by
    intro ms
    induction ms with
    | nil => intro s0 h0 h; cases h; exact h0
    | cons x ms ih =>
      obtain ⟨k, v⟩ := x
      intro s0 h0 h
      unfold Settings.read at h
      split at h
      · split at h
        · exact ih _ (by simpa using h0) h
        · cases h
      · split at h
        · split at h
          · exact ih _ (by simpa using h0) h
          · cases h
        · split at h
          · split at h
            · exact ih _ (by simpa using h0) h
            · cases h
          · split at h
            · split at h
              · exact ih _ (by simpa using h0) h
              · cases h
            · split at h
              · split at h
                · exact ih _ (by simp) h
                · split at h
                  · rename_i st hst
                    exact ih _ ((toStore_spec _ _ _ hst).1 h0) h
                  · cases h
                · cases h
              · exact ih _ (by simpa using h0) h
  unfold configNew at h
  split at h
  · cases h
  · cases h; simp
  · exact key _ _ (by simp) h
  · cases h

/-- Starting a storage delivers nothing. -/
theorem init_calls (lib : Lib W E) (name : Bytes) (p : Params) (w : W × List Call) (hw : ∀ c ∈ w.2, c.payload = none) :
    ∀ c ∈ ((connectors (recorder lib)).init name p w).1.2, c.payload = none := by
  have one : ∀ (c : Call) (w : W × List Call), c.payload = none → (∀ c ∈ w.2, c.payload = none) → ∀ c' ∈ (recorder lib c w).1.2, c'.payload = none := by
    intro c w hc hw c' hc'
    simp only [recorder, List.mem_append, List.mem_singleton] at hc'
    rcases hc' with h | rfl
    · exact hw _ h
    · exact hc
  cases p with
  | none =>
    simp only [connectors]
    split_ifs <;> simpa [amqpInit, pgInit, natsInit, tarantoolInit, redisInit, myInit] using hw
  | some c =>
    simp only [connectors]
    split_ifs
    · simp only [amqpInit]
      have h1 := one (.amqpDial (amqpUrl c)) w rfl hw
      split
      · rename_i heq; rw [heq] at h1; exact h1
      · rename_i heq; rw [heq] at h1; exact one _ _ rfl h1
    · simp only [pgInit]
      have h1 := one (.sqlOpen (go!"postgres") (pgDsn c)) w rfl hw
      split
      · rename_i heq; rw [heq] at h1; exact h1
      · rename_i heq; rw [heq] at h1; exact one _ _ rfl h1
    · exact one _ _ rfl hw
    · simp only [tarantoolInit]
      split
      · exact hw
      · split
        · exact hw
        · split
          · exact hw
          · exact one _ _ rfl hw
    · simp only [redisInit]
      split
      · exact hw
      · split
        · exact hw
        · split <;> exact hw
    · simp only [myInit]
      have h1 := one (.sqlOpen (go!"mysql") (setting c (go!"uri"))) w rfl hw
      split
      · rename_i heq; rw [heq] at h1; exact h1
      · rename_i heq; rw [heq] at h1; exact one _ _ rfl h1
    · exact hw

theorem loadLoop_calls (lib : Lib W E) (cfg : List (Bytes × Params)) (stores : List (Saver (W × List Call) (ConnErr E))) (w : W × List Call)
    (hw : ∀ c ∈ w.2, c.payload = none) :
    (∀ c ∈ (loadLoop (connectors (recorder lib)) stores w cfg).2.1.2, c.payload = none) ∧
    ∃ done : List (Bytes × Params), done <+: cfg ∧ (∀ x ∈ done, x.1 ∈ storageNames ∧ x.2.isSome) ∧
      (loadLoop (connectors (recorder lib)) stores w cfg).1 = stores ++ done.map fun x => (connectors (recorder lib)).saver x.1 x.2 := by
  induction cfg generalizing stores w with
  | nil => exact ⟨hw, [], List.nil_prefix, by simp, by simp [loadLoop]⟩
  | cons x cfg ih =>
    obtain ⟨name, p⟩ := x
    unfold loadLoop
    split
    · rename_i hn
      have hi := init_calls lib name p w hw
      have hs := init_settings (recorder lib) name hn p w
      split
      · rename_i w' e heq
        rw [heq] at hi
        exact ⟨hi, [], List.nil_prefix, by simp, by simp⟩
      · rename_i w' heq
        rw [heq] at hi hs
        obtain ⟨h1, done, h2, h3, h4⟩ := ih (stores ++ [(connectors (recorder lib)).saver name p]) w' hi
        refine ⟨h1, (name, p) :: done, (List.prefix_cons_inj _).mpr h2, ?_, by rw [h4]; simp⟩
        intro x hx
        rcases List.mem_cons.mp hx with rfl | hx
        · exact ⟨hn, hs rfl⟩
        · exact h3 x hx
    · exact ⟨hw, [], List.nil_prefix, by simp, by simp⟩

theorem mainStorages_calls (lib : Lib W E) (log : Saver (W × List Call) (ConnErr E)) (cfg : List (Bytes × Params)) (w : W × List Call)
    (hw : ∀ c ∈ w.2, c.payload = none) :
    (∀ c ∈ (mainStorages (connectors (recorder lib)) log w cfg).2.2, c.payload = none) ∧
    ∃ done : List (Bytes × Params), done <+: cfg ∧ (∀ x ∈ done, x.1 ∈ storageNames ∧ x.2.isSome) ∧
      ((mainStorages (connectors (recorder lib)) log w cfg).1 = (done.map fun x => (connectors (recorder lib)).saver x.1 x.2) ∨
       (mainStorages (connectors (recorder lib)) log w cfg).1 = (done.map fun x => (connectors (recorder lib)).saver x.1 x.2) ++ [log]) := by
  have key : (∀ c ∈ (loadStorages (connectors (recorder lib)) [] w cfg).2.1.2, c.payload = none) ∧
      ∃ done : List (Bytes × Params), done <+: cfg ∧ (∀ x ∈ done, x.1 ∈ storageNames ∧ x.2.isSome) ∧
        (loadStorages (connectors (recorder lib)) [] w cfg).1 = done.map fun x => (connectors (recorder lib)).saver x.1 x.2 := by
    unfold loadStorages
    split
    · exact ⟨hw, [], List.nil_prefix, by simp, rfl⟩
    · obtain ⟨h1, done, h2, h3, h4⟩ := loadLoop_calls lib cfg [] w hw
      exact ⟨h1, done, h2, h3, by simpa using h4⟩
  obtain ⟨h1, done, h2, h3, h4⟩ := key
  unfold mainStorages
  split
  · rename_i heq
    rw [heq] at h1 h4
    exact ⟨h1, done, h2, h3, .inl h4⟩
  · rename_i heq
    rw [heq] at h1 h4
    exact ⟨h1, done, h2, h3, .inr (congrArg (· ++ [log]) h4)⟩

/-! ## The whole receiver -/

theorem served_index {stores : List (Saver W E)} {w w' : W} {l : List (Nat × NavRecord × Nat × Option E)} (h : Served stores w l w') :
    ∀ x ∈ l, x.2.2.1 < stores.length := by
  induction l generalizing w with
  | nil => simp
  | cons x l ih =>
    obtain ⟨k, r, i, e⟩ := x
    obtain ⟨st, h1, _, h3⟩ := h
    intro y hy
    rcases List.mem_cons.mp hy with rfl | hy
    · exact (List.getElem?_eq_some_iff.mp h1).1
    · exact ih h3 y hy

/-- The names of the storages in use. -/
def namesOf (done : List (Bytes × Params)) : List Bytes := done.map (·.1) ++ [go!"log"]

theorem storages_emit (lib : Lib W E) (level : Level) (store done : List (Bytes × Params)) (hsub : ∀ x ∈ done, x ∈ store)
    (hdone : ∀ x ∈ done, x.1 ∈ storageNames ∧ x.2.isSome) (i : Nat) (st : Saver (W × List Call) (ConnErr E))
    (h : ((done.map fun x => (connectors (recorder lib)).saver x.1 x.2) ++ [logConnectorSave (recorder lib) level])[i]? = some st) :
    Emits (Delivers store ((namesOf done)[i]?.getD [])) st := by
  by_cases hi : i < done.length
  · rw [List.getElem?_append_left (by simpa using hi), List.getElem?_map, Option.map_eq_some_iff] at h
    obtain ⟨x, hx, rfl⟩ := h
    have hm := List.mem_of_getElem? hx
    obtain ⟨h1, h2⟩ := hdone x hm
    obtain ⟨c, hc⟩ := Option.isSome_iff_exists.mp h2
    obtain ⟨env, g, k2⟩ := C69_one_delivery (recorder lib) x.1 h1 c
    have hname : (namesOf done)[i]?.getD [] = x.1 := by
      unfold namesOf
      rw [List.getElem?_append_left (by simpa using hi), List.getElem?_map, hx]
      rfl
    rw [hname]
    refine .inl ⟨fun r => env r.toBytes, fun r hr => ⟨?_, .inr ⟨x.2, hsub x hm, h1, ?_⟩⟩, fun r w => ?_⟩
    · rw [(g _).1]
      exact C66_lossless r hr
    · rw [(g _).2.1, hc]
      rfl
    · rw [hc, (k2 r w).1]
      rfl
  · have hl : i = done.length := by
      have := (List.getElem?_eq_some_iff.mp h).1
      simp only [List.length_append, List.length_map, List.length_singleton] at this
      omega
    subst hl
    rw [List.getElem?_append_right (by simp)] at h
    simp only [List.length_map, Nat.sub_self, List.getElem?_cons_zero, Option.some.injEq] at h
    subst h
    have hname : (namesOf done)[done.length]?.getD [] = go!"log" := by
      unfold namesOf
      rw [List.getElem?_append_right (by simp)]
      simp
    rw [hname]
    by_cases hp : level.printsInfo = true
    · refine .inl ⟨fun r => .logPacket r.indented, fun r hr => ⟨readNav_indented r hr, .inl ⟨⟨_, rfl⟩, rfl⟩⟩, fun r w => ?_⟩
      simp [logConnectorSave, hp, recorder]
    · exact .inr fun r w => by simp [logConnectorSave, hp]

theorem fine_deliveries (lib : Lib W E) (level : Level) (store done : List (Bytes × Params)) (hsub : ∀ x ∈ done, x ∈ store)
    (hdone : ∀ x ∈ done, x.1 ∈ storageNames ∧ x.2.isSome) (hnd : (done.map (·.1)).Nodup) (stores : List (Saver (W × List Call) (ConnErr E)))
    (hst : stores <+: (done.map fun x => (connectors (recorder lib)).saver x.1 x.2) ++ [logConnectorSave (recorder lib) level])
    (w : W × List Call) (hw : ∀ c ∈ w.2, c.payload = none) (env : Env) (ce : Nat → ConnEnv) (evs : List Event)
    (s : Fine (W × List Call) (ConnErr E)) (hs : Fine.exec env ce stores { world := w } evs = some s) :
    ∃ l : List (Nat × Bytes × NavRecord),
      List.Forall₂ (fun c x => Delivers store x.2.1 x.2.2 c) (s.world.2.filter fun c => c.payload.isSome) l ∧
      ∀ k name, ((l.filter fun x => x.1 = k ∧ x.2.1 = name).map (·.2.2)).Sublist
        (saves (handleConn env (ce k) (receivedOn k evs) (endingOf k evs))) := by
  have hserved := C88_storages_serial env ce stores w evs s hs
  have hok : ∀ x ∈ s.offers, x.2.1.Ok := by
    intro x hx
    have hx' : x.2.1 ∈ (((s.offersOf x.1).filter fun y => y.2.1 = x.2.2.1).map (·.1)) := by
      refine List.mem_map.mpr ⟨x.2, List.mem_filter.mpr ⟨?_, by simp⟩, rfl⟩
      exact List.mem_map.mpr ⟨x, List.mem_filter.mpr ⟨hx, by simp⟩, rfl⟩
    have hx' := (offers_at hs x.1 x.2.2.1).subset hx'
    exact conn_saves (P := NavRecord.Ok) (fun i c b r hr => saved_ok hr) _ _ _ hx'
  have hidx : ∀ x ∈ s.offers, x.2.2.1 < (namesOf done).length := by
    intro x hx
    have := served_index hserved x hx
    have := hst.length_le
    simp only [List.length_append, List.length_map, List.length_singleton] at this
    simp only [namesOf, List.length_append, List.length_map, List.length_singleton]
    omega
  have hnd' : (namesOf done).Nodup := by
    unfold namesOf
    rw [List.nodup_append]
    refine ⟨hnd, by simp, ?_⟩
    intro a ha b hb
    obtain ⟨x, hx, rfl⟩ := List.mem_map.mp ha
    rw [List.mem_singleton] at hb
    subst hb
    intro h
    have := (hdone x hx).1
    rw [h] at this
    revert this
    decide
  obtain ⟨m, calls, m1, m2, m3⟩ := served_calls (D := fun i => Delivers store ((namesOf done)[i]?.getD []))
    (fun i st h => storages_emit lib level store done hsub hdone i st (by
      obtain ⟨t, ht⟩ := hst
      rw [← ht, List.getElem?_append_left (List.getElem?_eq_some_iff.mp h).1]
      exact h)) hok hserved
  refine ⟨m.map fun x => (x.1, (namesOf done)[x.2.2.1]?.getD [], x.2.1), ?_, fun k name => ?_⟩
  · rw [m2, List.filter_append]
    have h1 : w.2.filter (fun c => c.payload.isSome) = [] := by
      rw [List.filter_eq_nil_iff]
      intro c hc
      rw [hw c hc]
      simp
    have h2 : calls.filter (fun c => c.payload.isSome) = calls := by
      rw [List.filter_eq_self]
      intro c hc
      obtain ⟨n, hn, rfl⟩ := List.getElem_of_mem hc
      have hl := m3.length_eq
      have hx := ((List.forall₂_iff_get.mp m3).2 n hn (by omega)).1
      simp only [List.get_eq_getElem] at hx
      generalize calls[n] = c at hx
      cases hp : c.payload with
      | none => rw [hp] at hx; cases hx
      | some b => rfl
    rw [h1, h2, List.nil_append, List.forall₂_map_right_iff]
    exact m3
  · rw [List.filter_map, List.map_map]
    have step : ∀ (l : List (Nat × NavRecord × Nat × Option (ConnErr E))) (i0 : Nat), i0 < (namesOf done).length →
        (namesOf done)[i0]?.getD [] = name → (∀ x ∈ l, x.2.2.1 < (namesOf done).length) →
        l.filter (fun x => decide (x.1 = k ∧ (namesOf done)[x.2.2.1]?.getD [] = name)) = l.filter fun x => decide (x.1 = k ∧ x.2.2.1 = i0) := by
      intro l i0 h0 hn hl
      apply List.filter_congr
      intro x hx
      have hx := hl x hx
      have : (namesOf done)[x.2.2.1]?.getD [] = name ↔ x.2.2.1 = i0 := by
        rw [← hn, List.getElem?_eq_getElem hx, List.getElem?_eq_getElem h0, Option.getD_some, Option.getD_some]
        exact hnd'.getElem_inj_iff
      simp only [this]
    by_cases hi : ∃ i0, i0 < (namesOf done).length ∧ (namesOf done)[i0]?.getD [] = name
    · obtain ⟨i0, h0, hn⟩ := hi
      have e := step m i0 h0 hn (fun x hx => hidx x (m1.subset hx))
      refine List.Sublist.trans ?_ (offers_at hs k i0)
      have := ((m1.filter (fun x => decide (x.1 = k ∧ x.2.2.1 = i0))).map fun x => x.2.1)
      have key : ((s.offersOf k).filter fun x => x.2.1 = i0).map (·.1) =
          (s.offers.filter (fun x => decide (x.1 = k ∧ x.2.2.1 = i0))).map fun x => x.2.1 := by
        unfold Fine.offersOf
        rw [List.filter_map, List.map_map, List.filter_filter]
        congr 1
        apply List.filter_congr
        intro x _
        simp [Bool.and_comm]
      rw [key]
      rw [← e] at this
      exact this
    · have : m.filter ((fun x => decide (x.1 = k ∧ x.2.1 = name)) ∘ fun x => (x.1, (namesOf done)[x.2.2.1]?.getD [], x.2.1)) = [] := by
        rw [List.filter_eq_nil_iff]
        intro x hx
        simp only [Function.comp_apply, decide_eq_true_eq]
        rintro ⟨_, h⟩
        exact hi ⟨_, hidx x (m1.subset hx), h⟩
      rw [this]
      exact List.nil_sublist _

theorem received_accepted {env : Env} {ce : Nat → ConnEnv} {stores : List (Saver W E)} {evs : List Event} {s s' : Fine W E}
    (h : Fine.exec env ce stores s evs = some s') {k : Nat} (hk : receivedOn k evs ≠ []) : (s.conns k).isSome ∨ .accept k ∈ evs := by
  induction evs generalizing s with
  | nil => exact absurd rfl hk
  | cons ev evs ih =>
    simp only [Fine.exec, Option.bind_eq_some_iff] at h
    obtain ⟨r, hr, h⟩ := h
    by_cases hd : ∃ b, ev = .deliver k b
    · obtain ⟨b, rfl⟩ := hd
      unfold Fine.step at hr
      split at hr
      · cases hr
      · simp only [Option.bind_eq_some_iff] at hr
        obtain ⟨c, hc, _⟩ := hr
        exact .inl (by simp [hc])
    · have hk' : receivedOn k evs ≠ [] := by
        intro h0
        apply hk
        unfold receivedOn at h0 ⊢
        rw [List.flatMap_cons, h0, List.append_nil]
        cases ev with
        | deliver j b =>
          by_cases hj : j = k
          · subst hj; exact absurd ⟨b, rfl⟩ hd
          · simp [hj]
        | _ => rfl
      rcases ih h hk' with h1 | h1
      · rcases ((Fine.step_conns hr) k).1.mp h1 with h2 | h2
        · exact .inl h2
        · exact .inr (by rw [h2]; exact List.mem_cons_self)
      · exact .inr (List.mem_cons_of_mem _ h1)

end Egts
