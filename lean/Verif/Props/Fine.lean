import Verif.Proofs.Fine
import Verif.Props.EndToEnd

/-! # Saves that take time (C88) -/

namespace Egts

variable {W E : Type}

/-! ## Every connection by itself -/

/-- Also if other goroutines can do anything between the calls of two storages: what has been done on behalf of connection `k` is a
beginning of what a receiver serving that connection alone would do given the same bytes. -/
theorem C88_isolated (env : Env) (ce : Nat → ConnEnv) (stores : List (Saver W E)) (w : W) (evs : List Event) (s : Fine W E)
    (hs : Fine.exec env ce stores { world := w } evs = some s) (k : Nat) :
    s.doneBy k <+: handleConn env (ce k) (receivedOn k evs) (endingOf k evs) := by
  obtain ⟨_, evs', h1, h2, h3, _⟩ := Fine.exec_abs hs
  have := C55_isolated env ce [] () evs' s.abs h1 k
  rwa [h2, h3, doneBy_abs] at this

/-- … and all of it, once the goroutine of connection `k` has nothing left to do. -/
theorem C88_complete (env : Env) (ce : Nat → ConnEnv) (stores : List (Saver W E)) (w : W) (evs : List Event) (s : Fine W E)
    (hs : Fine.exec env ce stores { world := w } evs = some s) (k : Nat) (hk : (s.conns k).isSome)
    (h1 : s.step env ce stores (.iterate k) = none) (h2 : s.step env ce stores (.effect k) = none) (hc : s.crashed = false) :
    s.doneBy k = handleConn env (ce k) (receivedOn k evs) (endingOf k evs) := by
  obtain ⟨_, evs', a1, a2, a3, _⟩ := Fine.exec_abs hs
  obtain ⟨c, hk⟩ := Option.isSome_iff_exists.mp hk
  obtain ⟨q1, q2⟩ := (Fine.quiet_abs hk hc).mp ⟨h1, h2⟩
  have hsv := ((Fine.quiet_iff hk hc).mp ⟨h1, h2⟩).1
  have := C55_complete env ce [] () evs' s.abs a1 k c (Fine.conn_none hk hsv) q1 q2 hc
  rwa [a2, a3, doneBy_abs] at this

theorem endingOf_own {k : Nat} {evs more : List Event} (h : ∀ ev ∈ more, ev = .iterate k ∨ ev = .effect k) :
    endingOf k (evs ++ more) = endingOf k evs := by
  induction more using List.reverseRecOn with
  | nil => simp
  | append_singleton more ev ih =>
    rw [← List.append_assoc, endingOf_append, ih fun ev' h' => h ev' (by simp [h'])]
    rcases h ev (by simp) with rfl | rfl <;> rfl

/-- No connection can hold up another, not even in the middle of a save: from every state in which the process lives, the goroutine of
connection `k` can, by its own steps alone, come to the point where it has done everything (or crashes the process). -/
theorem C88_never_held_up (env : Env) (ce : Nat → ConnEnv) (stores : List (Saver W E)) (w : W) (evs : List Event) (s : Fine W E)
    (hs : Fine.exec env ce stores { world := w } evs = some s) (hc : s.crashed = false) (k : Nat) (hk : (s.conns k).isSome) :
    ∃ (more : List Event) (s' : Fine W E), (∀ ev ∈ more, ev = .iterate k ∨ ev = .effect k) ∧
      Fine.exec env ce stores { world := w } (evs ++ more) = some s' ∧
      (s'.crashed = true ∨ s'.doneBy k = handleConn env (ce k) (receivedOn k evs) (endingOf k evs)) := by
  obtain ⟨h0, evs', h1, h2, h3, _⟩ := Fine.exec_abs hs
  have hka : (s.abs.conns k).isSome := by simpa [Fine.abs, Fine.conn] using hk
  obtain ⟨more', t, m1, m2, m3⟩ := C55_never_held_up env ce [] () evs' s.abs h1 hc k hka
  rw [System.exec_append, h1, Option.bind_some] at m2
  obtain ⟨more, s', l1, l2, rfl⟩ := Fine.lift (stores := stores) m1 h0 m2
  refine ⟨more, s', l1, by rw [Fine.exec_append, hs]; exact l2, ?_⟩
  rwa [h2, h3, doneBy_abs] at m3

/-- The process ends only by bytes that make the handler of their own connection panic. -/
theorem C88_crash_has_a_cause (env : Env) (ce : Nat → ConnEnv) (stores : List (Saver W E)) (w : W) (evs : List Event) (s : Fine W E)
    (hs : Fine.exec env ce stores { world := w } evs = some s) (hc : s.crashed = true) :
    ∃ k, Effect.crash ∈ handleConn env (ce k) (receivedOn k evs) (endingOf k evs) := by
  obtain ⟨_, evs', h1, h2, h3, _⟩ := Fine.exec_abs hs
  obtain ⟨k, hk⟩ := C55_crash_has_a_cause env ce [] () evs' s.abs h1 hc
  rw [h2, h3] at hk
  exact ⟨k, hk⟩

/-! ## The storages -/

/-- The storages are called one after the other, whoever calls: the answers that they have given, and the state that they are in, are those
of one caller making the calls listed. -/
theorem C88_storages_serial (env : Env) (ce : Nat → ConnEnv) (stores : List (Saver W E)) (w : W) (evs : List Event) (s : Fine W E)
    (hs : Fine.exec env ce stores { world := w } evs = some s) : Served stores w s.offers s.world :=
  (Fine.exec_offers hs).1

/-- The calls made by the goroutine of connection `k` belong to its attempts to save a record, which it makes one after the other: each
offers the record to the storages in turn, up to the first that refuses. At most one more attempt has begun; it is for the record that a
receiver serving this connection alone would save next. -/
theorem C88_attempts (env : Env) (ce : Nat → ConnEnv) (stores : List (Saver W E)) (w : W) (evs : List Event) (s : Fine W E)
    (hs : Fine.exec env ce stores { world := w } evs = some s) (k : Nat) :
    (s.attemptsOf k).map (·.1) = saves (s.doneBy k) ∧
    ∃ chunks begun, s.offersOf k = chunks.flatten ++ begun ∧ List.Forall₂ (IsAttempt stores.length) chunks (s.attemptsOf k) ∧
      (begun = [] ∨ ∃ r, ∃ i ≤ stores.length, begun = acceptedUpTo r i ∧
        s.doneBy k ++ [.save r] <+: handleConn env (ce k) (receivedOn k evs) (endingOf k evs)) := by
  refine ⟨saves_attempts (Fine.log_saves hs) k, ?_⟩
  obtain ⟨⟨chunks, h1, h2⟩, h3⟩ := (Fine.exec_offers hs).2 k
  refine ⟨chunks, s.current k, h2, h1, ?_⟩
  cases hsv : s.saving k with
  | none => exact .inl (by simp [Fine.current, hsv])
  | some x => exact .inr ⟨x.1, x.2, h3 _ _ hsv, by simp [Fine.current, hsv], Fine.exec_saving hs hsv⟩

/-- If the storages accept everything, then each of them is offered what connection `k` saves: every record once, in order. -/
theorem C88_each_storage (env : Env) (ce : Nat → ConnEnv) (stores : List (Saver W E)) (hok : ∀ st ∈ stores, ∀ r w, (st r w).2 = none) (w : W)
    (evs : List Event) (s : Fine W E) (hs : Fine.exec env ce stores { world := w } evs = some s) (k : Nat) (hk : (s.conns k).isSome)
    (h1 : s.step env ce stores (.iterate k) = none) (h2 : s.step env ce stores (.effect k) = none) (hc : s.crashed = false)
    (i : Nat) (hi : i < stores.length) :
    ((s.offersOf k).filter (fun x => x.2.1 = i)).map (·.1) = saves (handleConn env (ce k) (receivedOn k evs) (endingOf k evs)) := by
  rw [← C88_complete env ce stores w evs s hs k hk h1 h2 hc]
  obtain ⟨c, hk⟩ := Option.isSome_iff_exists.mp hk
  rw [Fine.offers_accepted hok hs k ((Fine.quiet_iff hk hc).mp ⟨h1, h2⟩).1]
  have one : ∀ (r : NavRecord) (n : Nat), i < n → ((acceptedUpTo (E := E) r n).filter (fun x => x.2.1 = i)).map (·.1) = [r] := by
    intro r n
    induction n with
    | zero => intro h; exact absurd h (Nat.not_lt_zero _)
    | succ n ih =>
      intro h
      rw [acceptedUpTo_succ, List.filter_append, List.map_append]
      by_cases hn : i < n
      · rw [ih hn]
        simp [show ¬ n = i by omega]
      · have hni : n = i := by omega
        have : (acceptedUpTo (E := E) r n).filter (fun x => x.2.1 = i) = [] := by
          rw [List.filter_eq_nil_iff]
          intro x hx
          obtain ⟨j, hj, rfl⟩ := List.mem_map.mp hx
          have := List.mem_range.mp hj
          simp; omega
        rw [this]
        simp [hni]
  generalize saves (s.doneBy k) = l
  induction l with
  | nil => rfl
  | cons r l ih => rw [List.flatMap_cons, List.filter_append, List.map_append, one r _ hi, ih]; rfl

/-- The histories in which a save takes no time are among these: what has been proved here holds for them too. -/
theorem C88_contains_atomic (env : Env) (ce : Nat → ConnEnv) (stores : List (Saver W E)) (w : W) (evs : List Event) (s : System W E)
    (hs : System.exec env ce stores { world := w } evs = some s) :
    ∃ (evs' : List Event) (f : Fine W E), Fine.exec env ce stores { world := w } evs' = some f ∧ (∀ k, receivedOn k evs' = receivedOn k evs) ∧
      f.conns = s.conns ∧ f.world = s.world ∧ f.log = s.log ∧ f.crashed = s.crashed := by
  obtain ⟨evs', f, h1, ⟨h2, _, h3, h4, h5⟩, h6⟩ := Fine.same_exec (f := { world := w }) evs ⟨rfl, fun _ => rfl, rfl, rfl, rfl⟩ hs
  exact ⟨evs', f, h1, h6, h2, h3, h4, h5⟩

/-! ## The configured storages -/

/-- Every call of a storage is one call of its library, which delivers the record offered to the place configured for that storage. -/
theorem C88_calls (lib : Lib W E) (cfg : List (Bytes × Params)) (w0 : W × List Call) (stores : List (Saver (W × List Call) (ConnErr E)))
    (w1 : W × List Call) (hl : loadStorages (connectors (recorder lib)) [] w0 cfg = (stores, w1, none))
    (env : Env) (ce : Nat → ConnEnv) (evs : List Event) (s : Fine (W × List Call) (ConnErr E))
    (hs : Fine.exec env ce stores { world := w1 } evs = some s) :
    ∃ calls : List Call, s.world.2 = w1.2 ++ calls ∧ calls.map (fun c => some c.due) = s.offers.map fun (_, r, i, _) => (dues cfg r)[i]? := by
  have hok : (loadStorages (connectors (recorder lib)) [] w0 cfg).2.2 = none := by rw [hl]
  have hst := C54_adds_each_once _ _ _ _ hok
  rw [hl] at hst
  simp only [List.nil_append] at hst
  have hn := loaded_ok _ cfg w0 hok
  have hsv := C88_storages_serial env ce stores w1 evs s hs
  subst hst
  generalize s.offers = offs at hsv
  generalize s.world = w' at hsv
  clear hl hs
  induction offs generalizing w1 with
  | nil => cases hsv; exact ⟨[], by simp, rfl⟩
  | cons o offs ih =>
    obtain ⟨k, r, i, err⟩ := o
    obtain ⟨st, h1, _, h3⟩ := hsv
    rw [List.getElem?_map, Option.map_eq_some_iff] at h1
    obtain ⟨x, hx, rfl⟩ := h1
    obtain ⟨hx1, hx2⟩ := hn x (List.mem_of_getElem? hx)
    obtain ⟨c, hc⟩ := Option.isSome_iff_exists.mp hx2
    obtain ⟨env, g, k2⟩ := C69_one_delivery (recorder lib) x.1 hx1 c
    obtain ⟨g1, g2, _⟩ := g r.toBytes
    have k2 := (k2 r w1).1
    rw [← hc] at k2
    obtain ⟨calls, i1, i2⟩ := ih _ h3
    refine ⟨env r.toBytes :: calls, ?_, ?_⟩
    · rw [i1, k2]
      simp [recorder]
    · rw [List.map_cons, List.map_cons, i2]
      congr 1
      simp only [dues, List.getElem?_map, hx, Option.map_some, Call.due, g1, g2, hc, Option.getD_some]

theorem dues_offers (cfg : List (Bytes × Params)) (l : List NavRecord) :
    (l.flatMap (acceptedUpTo (E := E) · cfg.length)).map (fun (r, i, _) => (dues cfg r)[i]?) = (l.flatMap (dues cfg)).map some := by
  induction l with
  | nil => rfl
  | cons r l ih =>
    rw [List.flatMap_cons, List.flatMap_cons, List.map_append, List.map_append, ih]
    congr 1
    have : (dues cfg r).length = cfg.length := by simp [dues]
    rw [acceptedUpTo, List.map_map, ← this]
    apply List.ext_getElem
    · simp
    · intro i h1 h2
      have : i < (dues cfg r).length := by simpa using h2
      simp [this]

theorem connectors_accept (lib : Lib W E) (hok : ∀ c w, (lib c w).2 = none) (cfg : List (Bytes × Params))
    (hn : ∀ x ∈ cfg, x.1 ∈ storageNames ∧ x.2.isSome) :
    ∀ st ∈ cfg.map (fun x => (connectors lib).saver x.1 x.2), ∀ r w, (st r w).2 = none := by
  intro st hst r w
  obtain ⟨x, hx, rfl⟩ := List.mem_map.mp hst
  obtain ⟨h1, h2⟩ := hn x hx
  obtain ⟨c, hc⟩ := Option.isSome_iff_exists.mp h2
  obtain ⟨env, _, k2⟩ := C69_one_delivery lib x.1 h1 c
  rw [hc]
  exact ((k2 r w).2).mpr (hok _ _)

/-- The whole way, as in C82: a device has sent packets on connection `k` and its goroutine has nothing left to do. Then the records due
have been delivered, in order, to the places configured, and the answers have been written. -/
theorem C88_delivered (lib : Lib W E) (hok : ∀ c w, (lib c w).2 = none) (cfg : List (Bytes × Params)) (w0 : W × List Call)
    (stores : List (Saver (W × List Call) (ConnErr E))) (w1 : W × List Call)
    (hl : loadStorages (connectors (recorder lib)) [] w0 cfg = (stores, w1, none))
    (env : Env) (ce : Nat → ConnEnv) (evs : List Event) (s : Fine (W × List Call) (ConnErr E))
    (hs : Fine.exec env ce stores { world := w1 } evs = some s)
    (k : Nat) (hk : (s.conns k).isSome) (h1 : s.step env ce stores (.iterate k) = none)
    (h2 : s.step env ce stores (.effect k) = none) (hc : s.crashed = false)
    (sent : List (Package × List ServiceDataRecord)) (frames : List Bytes) (hr : ∀ x ∈ sent, Report env x.1 x.2)
    (hf : List.Forall₂ (fun x f => (x.1.encode env none).2 = .ok f) sent frames) (hrec : receivedOn k evs = frames.flatten) :
    ∃ calls got answers, s.world.2 = w1.2 ++ calls ∧
      List.Forall₂ NavRecord.Near (dueRecords (ce k).clock sent) got ∧ (∀ r ∈ got, Json.readNav r.toBytes = some r) ∧
      (got.flatMap (dues cfg)).Sublist (calls.map Call.due) ∧
      List.Forall₂ (Answers env) sent answers ∧ writes (s.doneBy k) = answers.flatten := by
  have hd := C88_complete env ce stores w1 evs s hs k hk h1 h2 hc
  have hR : ∀ r ∈ saves (s.doneBy k), Json.readNav r.toBytes = some r := by
    rw [hd]
    exact conn_saves (fun i c b => C66_saved_lossless env _ c _) _ _
  rw [hrec] at hd
  obtain ⟨t1, answers, t2, t3⟩ := C82_totals env (ce k) sent frames hr hf (endingOf k evs)
  rw [← hd] at t1 t3
  obtain ⟨calls, e1, e2⟩ := C88_calls lib cfg w0 stores w1 hl env ce evs s hs
  have hld : (loadStorages (connectors (recorder lib)) [] w0 cfg).2.2 = none := by rw [hl]
  have hst := C54_adds_each_once _ _ _ _ hld
  rw [hl] at hst
  simp only [List.nil_append] at hst
  obtain ⟨c, hk⟩ := Option.isSome_iff_exists.mp hk
  have hacc := connectors_accept (recorder lib) (fun c w => hok c w.1) cfg (loaded_ok _ cfg w0 hld)
  rw [← hst] at hacc
  have ho := Fine.offers_accepted hacc hs k ((Fine.quiet_iff hk hc).mp ⟨h1, h2⟩).1
  refine ⟨calls, _, answers, e1, t1, hR, ?_, t2, t3⟩
  have hsub : ((s.offersOf k).map (fun (r, i, _) => (dues cfg r)[i]?)).Sublist (s.offers.map fun (_, r, i, _) => (dues cfg r)[i]?) := by
    unfold Fine.offersOf
    rw [List.map_map]
    exact List.Sublist.map _ List.filter_sublist
  rw [ho, ← e2, hst, List.length_map, dues_offers] at hsub
  have := hsub.filterMap id
  rwa [show calls.map (fun c => some c.due) = (calls.map Call.due).map some by simp, List.filterMap_map, List.filterMap_map,
    show (id ∘ some : List Bytes × Option Bytes → _) = some from rfl, List.filterMap_some, List.filterMap_some] at this

/-- The goroutine of a connection on which a device has sent packets can get to the end of them by its own steps alone. -/
theorem device_settles_fine (stores : List (Saver W E)) (w1 : W) (env : Env) (ce : Nat → ConnEnv) (evs : List Event) (s : Fine W E)
    (hs : Fine.exec env ce stores { world := w1 } evs = some s) (hc : s.crashed = false) (k : Nat) (hk : (s.conns k).isSome)
    (sent : List (Package × List ServiceDataRecord)) (frames : List Bytes) (hr : ∀ x ∈ sent, Report env x.1 x.2)
    (hf : List.Forall₂ (fun x f => (x.1.encode env none).2 = .ok f) sent frames) (hrec : receivedOn k evs = frames.flatten) :
    ∃ (more : List Event) (s' : Fine W E), (∀ ev ∈ more, ev = .iterate k ∨ ev = .effect k) ∧
      Fine.exec env ce stores { world := w1 } (evs ++ more) = some s' ∧ s'.crashed = false ∧ (s'.conns k).isSome ∧
      s'.step env ce stores (.iterate k) = none ∧ s'.step env ce stores (.effect k) = none ∧ receivedOn k (evs ++ more) = frames.flatten := by
  obtain ⟨h0, evs', h1, h2, h3, _⟩ := Fine.exec_abs hs
  have hka : (s.abs.conns k).isSome := by simpa [Fine.abs, Fine.conn] using hk
  obtain ⟨more', t, c', m1, m2, m3, m4, m5, m6, _⟩ := device_settles [] () env ce evs' s.abs h1 hc k hka sent frames hr hf (by rw [h2]; exact hrec)
  rw [System.exec_append, h1, Option.bind_some] at m2
  obtain ⟨more, s', l1, l2, rfl⟩ := Fine.lift (stores := stores) m1 h0 m2
  have hk' : (s'.conns k).isSome := by
    have : (s'.conn k).isSome := by rw [show s'.conn k = s'.abs.conns k from rfl, m4]; rfl
    simpa [Fine.conn] using this
  obtain ⟨c2, hc2⟩ := Option.isSome_iff_exists.mp hk'
  obtain ⟨q1, q2⟩ := (Fine.quiet_abs (stores := stores) hc2 m3).mpr ⟨m5, m6⟩
  exact ⟨more, s', l1, by rw [Fine.exec_append, hs]; exact l2, m3, hk', q1, q2, (receivedOn_own l1).trans hrec⟩

/-- … and nothing can prevent that: as long as the process lives, the goroutine of the connection can bring it about by its own
steps alone, whatever the others are doing. -/
theorem C88_eventually (lib : Lib W E) (hok : ∀ c w, (lib c w).2 = none) (cfg : List (Bytes × Params)) (w0 : W × List Call)
    (stores : List (Saver (W × List Call) (ConnErr E))) (w1 : W × List Call)
    (hl : loadStorages (connectors (recorder lib)) [] w0 cfg = (stores, w1, none))
    (env : Env) (ce : Nat → ConnEnv) (evs : List Event) (s : Fine (W × List Call) (ConnErr E))
    (hs : Fine.exec env ce stores { world := w1 } evs = some s) (hc : s.crashed = false) (k : Nat) (hk : (s.conns k).isSome)
    (sent : List (Package × List ServiceDataRecord)) (frames : List Bytes) (hr : ∀ x ∈ sent, Report env x.1 x.2)
    (hf : List.Forall₂ (fun x f => (x.1.encode env none).2 = .ok f) sent frames) (hrec : receivedOn k evs = frames.flatten) :
    ∃ (more : List Event) (s' : Fine (W × List Call) (ConnErr E)), (∀ ev ∈ more, ev = .iterate k ∨ ev = .effect k) ∧
      Fine.exec env ce stores { world := w1 } (evs ++ more) = some s' ∧ s'.crashed = false ∧
      s'.step env ce stores (.iterate k) = none ∧ s'.step env ce stores (.effect k) = none ∧
      ∃ calls got answers, s'.world.2 = w1.2 ++ calls ∧
        List.Forall₂ NavRecord.Near (dueRecords (ce k).clock sent) got ∧ (∀ r ∈ got, Json.readNav r.toBytes = some r) ∧
        (got.flatMap (dues cfg)).Sublist (calls.map Call.due) ∧
        List.Forall₂ (Answers env) sent answers ∧ writes (s'.doneBy k) = answers.flatten := by
  obtain ⟨more, s', h1, hx, hlive, k1, q1, q2, hrec'⟩ := device_settles_fine stores w1 env ce evs s hs hc k hk sent frames hr hf hrec
  exact ⟨more, s', h1, hx, hlive, q1, q2,
    C88_delivered lib hok cfg w0 stores w1 hl env ce (evs ++ more) s' hx k k1 q1 q2 hlive sent frames hr hf hrec'⟩

/-! ## Examples -/

/-- Two connections save a record each, in two storages. Both are offered to the first storage before either is offered to the second, to
which the second connection comes first. -/
def interleavedSaves : List Event :=
  [.accept 0, .accept 1, .deliver 0 Ex.twoPos, .deliver 1 Ex.twoPos, .iterate 0, .iterate 1, .effect 0, .effect 1, .effect 0, .effect 1, .effect 1,
   .effect 0, .effect 1, .effect 0, .effect 1, .effect 0]

set_option maxRecDepth 40000 in
/-- No receiver whose saves take no time makes these calls in this order; and both goroutines get to the end. -/
example (env : Env) : ∃ s : Fine (List (Nat × Int)) Unit,
    Fine.exec env (fun k => { clock := fun _ => k, spare := fun _ => [] })
      [fun r w => (w ++ [(0, r.receivedTimestamp)], none), fun r w => (w ++ [(1, r.receivedTimestamp)], none)] { world := [] } interleavedSaves = some s ∧
    s.world = [(0, 0), (0, 1), (1, 1), (1, 0)] ∧ s.offers.map (fun x => (x.1, x.2.2)) = [(0, 0, none), (1, 0, none), (1, 1, none), (0, 1, none)] ∧
    s.crashed = false ∧ (s.conns 0).isSome ∧ (s.doneBy 0).length = 2 ∧ (s.doneBy 1).length = 2 := by
  refine ⟨_, by with_unfolding_all rfl, ?_⟩
  with_unfolding_all exact ⟨rfl, rfl, rfl, rfl, rfl, rfl⟩

set_option maxRecDepth 40000 in
/-- In the middle of it a save has begun, and one storage has accepted. -/
example (env : Env) : ∃ s : Fine (List NavRecord) Unit,
    Fine.exec env (fun k => { clock := fun _ => k, spare := fun _ => [] }) [fun r w => (w ++ [r], none), fun r w => (w ++ [r], none)] { world := [] }
      (interleavedSaves.take 10) = some s ∧ s.doneBy 0 = [] ∧ (s.offersOf 0).length = 1 ∧ s.attemptsOf 0 = [] := by
  refine ⟨_, by with_unfolding_all rfl, ?_⟩
  with_unfolding_all exact ⟨rfl, rfl, rfl⟩

/-- Six storages and the device of C82. -/
example (env : Env) (ce : Nat → ConnEnv) : ∃ (stores : List (Saver (Unit × List Call) (ConnErr Unit))) (w1 : Unit × List Call) (evs : List Event)
    (s : Fine (Unit × List Call) (ConnErr Unit)),
    loadStorages (connectors (recorder (fun (_ : Call) () => ((), (none : Option Unit))))) [] ((), []) sixStorages = (stores, w1, none) ∧
    Fine.exec env ce stores { world := w1 } evs = some s ∧ w1.2.length + 6 ≤ s.world.2.length ∧ (s.conns 0).isSome ∧ s.crashed = false ∧
    s.step env ce stores (.iterate 0) = none ∧ s.step env ce stores (.effect 0) = none := by
  obtain ⟨stores, w1, hl⟩ : ∃ stores w1,
      loadStorages (connectors (recorder (fun (_ : Call) () => ((), (none : Option Unit))))) [] ((), []) sixStorages = (stores, w1, none) := ⟨_, _, rfl⟩
  obtain ⟨frames, hf⟩ := device_frames env
  obtain ⟨more, s, _, hx, hc, hk, q1, q2, hrec⟩ := device_settles_fine stores w1 env ce [.accept 0, .deliver 0 frames.flatten] _ rfl rfl 0 rfl deviceSends
    frames (device_reports env) hf (by simp [receivedOn])
  obtain ⟨calls, got, answers, e1, e2, _, e3, _⟩ := C88_delivered (fun (_ : Call) () => ((), (none : Option Unit)))
    (fun _ _ => rfl) sixStorages ((), []) stores w1 hl env ce _ s hx 0 hk q1 q2 hc deviceSends frames (device_reports env) hf hrec
  refine ⟨stores, w1, _, s, hl, hx, ?_, hk, hc, q1, q2⟩
  have h1 := e2.length_eq
  have h2 := e3.length_le
  have h3 : (dueRecords (ce 0).clock deviceSends).length = 1 := rfl
  have h4 : got.length = 1 := by rw [← h1, h3]
  obtain ⟨g, rfl⟩ := List.length_eq_one_iff.mp h4
  rw [e1, List.length_append]
  simp only [List.flatMap_cons, List.flatMap_nil, List.append_nil, dues, List.length_map] at h2
  have : sixStorages.length = 6 := rfl
  omega

end Egts
