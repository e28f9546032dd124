import Verif.Proofs.Live

/-! # Everything gets done (C94) -/

namespace Egts

variable {W E : Type}

/-- The goroutine of a connection makes finitely many steps for what has been received: one for each packet, one more to find that no other comes,
one for each thing to do, and for each record to be saved one more for each storage. -/
theorem C94_finite_work (env : Env) (ce : Nat → ConnEnv) (stores : List (Saver W E)) (w : W) (evs : List Event) (s : Fine W E)
    (hs : Fine.exec env ce stores { world := w } evs = some s) (k : Nat) :
    evs.count (.iterate k) ≤ (receivedOn k evs).length / 10 + 1 ∧
    evs.count (.effect k) ≤ (stores.length + 2) * ((handleConn env (ce k) (receivedOn k evs) (endingOf k evs)).length + 1) := by
  obtain ⟨a, b, c, d⟩ := Fine.counted hs k
  have hl := (C88_isolated env ce stores w evs s hs k).length_le
  have hw : s.within k ≤ stores.length + 1 := by
    unfold Fine.within
    split
    · rename_i h
      have := d _ _ h
      omega
    · omega
  have := Nat.mul_le_mul_left (stores.length + 2) hl
  unfold iterates at a
  unfold effects at c
  rw [Nat.mul_add]
  refine ⟨?_, by omega⟩
  split at a <;> omega

theorem started_as {lib : Lib W E} {order : List (Bytes × Params) → List (Bytes × Params)} {fs : Bytes → Option Yaml} {env : Env}
    {ce : Nat → ConnEnv} {argv : List Bytes} {w : W} {evs : List ProgEvent} (hne : evs ≠ []) {p : Program W (ConnErr E)}
    (hp : receiverRun lib order fs env ce argv w evs = some p) : ∃ addr stores w1, ∀ evs, receiverRun lib order fs env ce argv w evs =
      Program.exec env ce stores { addr := addr, sys := { world := w1 } } evs := by
  obtain ⟨path, _, hpath, _⟩ := (C87_serves lib order fs env ce argv w _ _ hp).2.2.2.2 hne
  obtain ⟨s, stores, w1, _, _, _, hrun, _⟩ := run_started hne hpath hp
  exact ⟨_, stores, w1, hrun⟩

/-- A history that goes on for ever has not crashed. -/
theorem forever_alive {lib : Lib W E} {order : List (Bytes × Params) → List (Bytes × Params)} {fs : Bytes → Option Yaml} {env : Env}
    {ce : Nat → ConnEnv} {argv : List Bytes} {w : W} {f : Nat → ProgEvent} (hf : Forever (receiverRun lib order fs env ce argv w) f) {m : Nat}
    (hm : m ≠ 0) {p : Program W (ConnErr E)} (hp : receiverRun lib order fs env ce argv w (upTo f m) = some p) : p.sys.crashed = false := by
  obtain ⟨q, hq⟩ := Option.isSome_iff_exists.mp (hf (m + 1))
  have hshape := (C87_serves lib order fs env ce argv w _ _ hq).1
  have hne : upTo f m ≠ [] := by
    intro h
    have := congrArg List.length h
    simp [upTo] at this
    exact hm this
  rw [upTo_succ] at hshape hq
  have hev : ∀ ok, f m ≠ .listen ok := by
    intro ok hl
    rw [hl] at hshape
    obtain ⟨e, l, hel⟩ := List.exists_cons_of_ne_nil hne
    rw [hel] at hshape
    rcases hshape with h | h | ⟨rest, h, h'⟩
    · simp at h
    · simp at h
    · obtain ⟨-, rfl⟩ := List.cons.inj h
      exact h' ok (by simp)
  by_contra hc
  have hc : p.sys.crashed = true := by simpa using hc
  have hnone : ∀ stores : List (Saver W (ConnErr E)), p.step env ce stores (f m) = none := by
    intro stores
    cases hfm : f m with
    | listen ok => exact absurd hfm (hev ok)
    | acceptFails => simp [Program.step, hc]
    | conn ev => cases ev <;> simp [Program.step, Fine.step, hc]
  obtain ⟨addr, stores, w1, hrun⟩ := started_as hne hp
  rw [hrun] at hp hq
  rw [Program.exec_append, hp] at hq
  simp [Program.exec, hnone] at hq

/-- A goroutine that cannot make a step has nothing left to do. -/
theorem idle_quiet {P : Type} {run : List ProgEvent → Option P} {k : Nat} {evs : List ProgEvent} (h : ¬ CanStep run k evs) :
    run (evs ++ [.conn (.iterate k)]) = none ∧ run (evs ++ [.conn (.effect k)]) = none := by
  constructor <;>
  · by_contra hne
    exact h ⟨_, by simp [IsStepOf], Option.isSome_iff_ne_none.mpr hne⟩

/-- In a history that goes on for ever and is fair to the goroutine of connection `k`, on which only so much is received: the goroutine has
nothing left to do again and again. -/
theorem idle_in_run {lib : Lib W E} {order : List (Bytes × Params) → List (Bytes × Params)} {fs : Bytes → Option Yaml} {env : Env}
    {ce : Nat → ConnEnv} {argv : List Bytes} {w : W} {f : Nat → ProgEvent} {k : Nat} (hf : Forever (receiverRun lib order fs env ce argv w) f)
    (hfair : FairTo (receiverRun lib order fs env ce argv w) k f) {n0 : Nat} {b : Bytes} (hb : ∀ n ≥ n0, receivedOn k (onConns (upTo f n)) = b)
    (n : Nat) : ∃ m ≥ n, ¬ CanStep (receiverRun lib order fs env ce argv w) k (upTo f m) := by
  obtain ⟨p1, hp1⟩ := Option.isSome_iff_exists.mp (hf 1)
  obtain ⟨addr, stores, w1, hrun⟩ := started_as (by simp [upTo]) hp1
  refine idle_again hfair (N := b.length / 10 + 1 + ((stores.length + 2) * ((handleConn env (ce k) b .eof).length + 1) +
    (stores.length + 2) * ((handleConn env (ce k) b .error).length + 1) + (stores.length + 2) * ((handleConn env (ce k) b .blocked).length + 1)))
    (n0 := n0) ?_ n
  intro n hn
  obtain ⟨p, hp⟩ := Option.isSome_iff_exists.mp (hf n)
  rw [hrun] at hp
  obtain ⟨h1, h2⟩ := C94_finite_work env ce stores w1 _ _ (Program.exec_parts hp).2.1 k
  rw [steps_onConns]
  rw [hb n hn] at h1 h2
  unfold iterates effects
  cases he : endingOf k (onConns (upTo f n)) <;> rw [he] at h2 <;> omega

/-- The process goes on, its scheduler is fair to the goroutine of connection `k`, and from some time on nothing more is received on that
connection. Then what is to be done about what has been received gets done, whatever else happens. -/
theorem C94_done (lib : Lib W E) (order : List (Bytes × Params) → List (Bytes × Params)) (fs : Bytes → Option Yaml) (env : Env)
    (ce : Nat → ConnEnv) (argv : List Bytes) (w : W) (f : Nat → ProgEvent) (k : Nat) (hf : Forever (receiverRun lib order fs env ce argv w) f)
    (hfair : FairTo (receiverRun lib order fs env ce argv w) k f) (n0 : Nat) (hk : k ∈ acceptedOf (upTo f n0)) (b : Bytes) (e : End)
    (hb : ∀ n ≥ n0, receivedOn k (onConns (upTo f n)) = b) (he : ∀ n ≥ n0, endingOf k (onConns (upTo f n)) = e) :
    ∃ n, ∀ m ≥ n, ∃ p, receiverRun lib order fs env ce argv w (upTo f m) = some p ∧ p.sys.doneBy k = handleConn env (ce k) b e := by
  have hn0 : n0 ≠ 0 := by
    rintro rfl
    simp [upTo, acceptedOf] at hk
  obtain ⟨n, hn, hidle⟩ := idle_in_run hf hfair hb n0
  obtain ⟨q1, q2⟩ := idle_quiet hidle
  obtain ⟨p, hp⟩ := Option.isSome_iff_exists.mp (hf n)
  have hc := forever_alive hf (by omega) hp
  have hkn : k ∈ acceptedOf (upTo f n) := by
    obtain ⟨more, hmore⟩ := upTo_le f hn
    rw [hmore]
    unfold acceptedOf at hk ⊢
    rw [List.filterMap_append]
    exact List.mem_append_left _ hk
  have hconn := ((C87_serves lib order fs env ce argv w _ _ hp).2.2.1 k).mpr hkn
  obtain ⟨addr, stores, w1, hrun⟩ := started_as (by intro h; rw [h] at hkn; simp [acceptedOf] at hkn) hp
  rw [hrun] at hp q1 q2
  have ha := accepting_of rfl hp hkn
  have hsys := (Program.exec_parts hp).2.1
  have hdone := C88_complete env ce stores w1 _ _ hsys k hconn (Program.quiet hp ha (by simp) q1) (Program.quiet hp ha (by simp) q2) hc
  rw [hb n hn, he n hn] at hdone
  refine ⟨n, fun m hm => ?_⟩
  obtain ⟨p', hp'⟩ := Option.isSome_iff_exists.mp (hf m)
  refine ⟨p', hp', ?_⟩
  rw [hrun] at hp'
  have hle := C88_isolated env ce stores w1 _ _ (Program.exec_parts hp').2.1 k
  rw [hb m (by omega), he m (by omega)] at hle
  obtain ⟨more, hmore⟩ := upTo_le f hm
  rw [hmore, Program.exec_append, hp] at hp'
  have := Fine.doneBy_grows (Program.exec_parts hp').2.1 k
  rw [hdone] at this
  exact hle.eq_of_length (Nat.le_antisymm hle.length_le this.length_le)

/-- Like `C87_delivered`, and for ever. -/
theorem arrived_stays {lib : Lib W E} {order : List (Bytes × Params) → List (Bytes × Params)} {fs : Bytes → Option Yaml} {env : Env}
    {ce : Nat → ConnEnv} {argv : List Bytes} {w0 : W} {ss : List (Bytes × Yaml)} (hok : ∀ c w, (lib c w).2 = none) (hord : ∀ l, (order l).Perm l)
    (hcfg : Configured argv fs ss) {evs more : List ProgEvent} {p q : Program (W × List Call) (ConnErr E)}
    (hevs : evs ≠ []) (hp : receiverRun (recorder lib) order fs env ce argv (w0, []) evs = some p)
    (hq : receiverRun (recorder lib) order fs env ce argv (w0, []) (evs ++ more) = some q) {k : Nat}
    {sent : List (Package × List ServiceDataRecord)} {frames : List Bytes} (hr : ∀ x ∈ sent, Report env x.1 x.2)
    (hf : List.Forall₂ (fun x f => (x.1.encode env none).2 = .ok f) sent frames)
    (hrec : receivedOn k (onConns (evs ++ more)) = frames.flatten)
    (h : Arrived env (ce k).clock sent ss p.sys.world.2 (writes (p.sys.doneBy k))) :
    Arrived env (ce k).clock sent ss q.sys.world.2 (writes (q.sys.doneBy k)) := by
  obtain ⟨cfg, got, answers, a1, a2, a3, a4, a5, a6⟩ := h
  obtain ⟨hne, ⟨path, ms, hpath, hfs, hsec⟩, huse⟩ := hcfg
  obtain ⟨s, stores, w1, hs, hm, _, hrun, hsys⟩ := run_started hevs hpath hp
  rw [hfs] at hs
  obtain ⟨hst, stores', w1', hl⟩ := loaded (recorder_ok hok) hord hs hsec hne huse (w0, [])
  have hm' : (stores', w1') = (stores, w1) := by
    rw [← hm]
    unfold mainStorages
    rw [hl]
  cases hm'
  rw [hrun] at hp hq
  have hqsys := (Program.exec_parts hq).2.1
  rw [Program.exec_append, hp] at hq
  have hmore := (Program.exec_parts hq).2.1
  obtain ⟨calls, e1, e2⟩ := C88_calls lib (order s.store) (w0, []) stores w1 hl env ce _ _ hsys
  obtain ⟨calls', e1', e2'⟩ := C88_calls lib (order s.store) (w0, []) stores w1 hl env ce _ _ hqsys
  refine ⟨cfg, got, answers, a1, a2, a3, a4.trans ?_, a5, ?_⟩
  · rw [e1, e1', List.map_append, List.map_append]
    refine List.Sublist.append (List.Sublist.refl _) ?_
    have hpre := (Fine.exec_grows hmore).2.map (fun (_, r, i, _) => (dues (order s.store) r)[i]?)
    rw [← e2, ← e2'] at hpre
    have := hpre.sublist.filterMap id
    have fm : ∀ l : List Call, (l.map fun c => some c.due).filterMap id = l.map Call.due := by
      intro l
      induction l <;> simp_all
    rwa [fm, fm] at this
  · have h1 := Fine.doneBy_grows hmore k
    have h2 := C88_isolated env ce stores w1 _ _ hqsys k
    rw [hrec] at h2
    obtain ⟨_, answers', t2, t3⟩ := C82_totals env (ce k) sent frames hr hf (endingOf k (onConns (evs ++ more)))
    have wp : ∀ {a b : List Effect}, a <+: b → writes a <+: writes b := by
      rintro a b ⟨t, rfl⟩
      rw [writes_append]
      exact List.prefix_append _ _
    have h1 := wp h1
    have h2 := wp h2
    rw [t3] at h2
    rw [a6] at h1
    refine (h1.eq_of_length (Nat.le_antisymm h1.length_le ?_)).symm
    rw [answers_length a5, ← answers_length t2]
    exact h2.length_le

/-- The whole way, and not only possibly: the receiver is started with a configuration file with storages whose libraries accept everything; a
device connects and sends packets. In every history in which the process goes on and its scheduler is fair to the goroutine of this
connection, what has been sent arrives, whatever happens on other connections. -/
theorem C94_arrives (lib : Lib W E) (hok : ∀ c w, (lib c w).2 = none) (order : List (Bytes × Params) → List (Bytes × Params))
    (hord : ∀ l, (order l).Perm l) (fs : Bytes → Option Yaml) (env : Env) (ce : Nat → ConnEnv) (argv : List Bytes) (w0 : W)
    (ss : List (Bytes × Yaml)) (hcfg : Configured argv fs ss) (f : Nat → ProgEvent) (k : Nat)
    (hf : Forever (receiverRun (recorder lib) order fs env ce argv (w0, [])) f)
    (hfair : FairTo (receiverRun (recorder lib) order fs env ce argv (w0, [])) k f) (n0 : Nat) (hk : k ∈ acceptedOf (upTo f n0))
    (sent : List (Package × List ServiceDataRecord)) (frames : List Bytes) (hr : ∀ x ∈ sent, Report env x.1 x.2)
    (hfr : List.Forall₂ (fun x f => (x.1.encode env none).2 = .ok f) sent frames)
    (hb : ∀ n ≥ n0, receivedOn k (onConns (upTo f n)) = frames.flatten) :
    ∃ n, ∀ m ≥ n, ∃ p, receiverRun (recorder lib) order fs env ce argv (w0, []) (upTo f m) = some p ∧
      Arrived env (ce k).clock sent ss p.sys.world.2 (writes (p.sys.doneBy k)) := by
  have hn0 : n0 ≠ 0 := by
    rintro rfl
    simp [upTo, acceptedOf] at hk
  obtain ⟨n, hn, hidle⟩ := idle_in_run hf hfair hb n0
  obtain ⟨q1, q2⟩ := idle_quiet hidle
  obtain ⟨p, hp⟩ := Option.isSome_iff_exists.mp (hf n)
  have hc := forever_alive hf (by omega) hp
  have hkn : k ∈ acceptedOf (upTo f n) := by
    obtain ⟨more, hmore⟩ := upTo_le f hn
    rw [hmore]
    unfold acceptedOf at hk ⊢
    rw [List.filterMap_append]
    exact List.mem_append_left _ hk
  have harr := C87_delivered lib hok order hord fs env ce argv w0 ss hcfg _ p hp hc k hkn q1 q2 sent frames hr hfr (hb n hn)
  refine ⟨n, fun m hm => ?_⟩
  obtain ⟨q, hq⟩ := Option.isSome_iff_exists.mp (hf m)
  refine ⟨q, hq, ?_⟩
  have hbm := hb m (by omega)
  obtain ⟨more, hmore⟩ := upTo_le f hm
  rw [hmore] at hq hbm
  exact arrived_stays hok hord hcfg (by intro h; rw [h] at hkn; simp [acceptedOf] at hkn) hp hq hr hfr hbm harr

/-- A history that goes on with failures to accept a connection. -/
def thenIdle (l : List ProgEvent) (n : Nat) : ProgEvent := (l[n]?).getD .acceptFails

theorem thenIdle_upTo (l : List ProgEvent) (n : Nat) : upTo (thenIdle l) n = l.take n ++ List.replicate (n - l.length) .acceptFails := by
  induction n with
  | zero => simp [upTo]
  | succ n ih =>
    rw [upTo_succ, ih]
    by_cases h : n < l.length
    · rw [show n - l.length = 0 by omega, show n + 1 - l.length = 0 by omega, List.take_add_one]
      simp [thenIdle, List.getElem?_eq_getElem h]
    · rw [List.take_of_length_le (by omega), List.take_of_length_le (by omega), show n + 1 - l.length = n - l.length + 1 by omega,
        List.replicate_succ', List.append_assoc, thenIdle, List.getElem?_eq_none (by omega)]
      rfl

/-- A device that has been served by a receiver that goes on for ever. -/
theorem example_forever (env : Env) (ce : Nat → ConnEnv) : ∃ (f : Nat → ProgEvent) (frames : List Bytes) (n0 : Nat),
    Forever (receiverRun (recorder (fun (_ : Call) () => ((), (none : Option Unit)))) List.reverse (exampleFs (.map exampleStorages)) env ce
      [go!"-c", go!"config.yaml"] ((), [])) f ∧
    FairTo (receiverRun (recorder (fun (_ : Call) () => ((), (none : Option Unit)))) List.reverse (exampleFs (.map exampleStorages)) env ce
      [go!"-c", go!"config.yaml"] ((), [])) 7 f ∧ 7 ∈ acceptedOf (upTo f n0) ∧
    List.Forall₂ (fun y f => (y.1.encode env none).2 = .ok f) deviceSends frames ∧
    ∀ n ≥ n0, receivedOn 7 (onConns (upTo f n)) = frames.flatten ∧ endingOf 7 (onConns (upTo f n)) = .blocked := by
  obtain ⟨frames, hf⟩ := device_frames env
  obtain ⟨more, p, hm, h, hc, q1, q2, h'⟩ := C87_eventually (fun (_ : Call) () => ((), (none : Option Unit))) (fun _ _ => rfl) List.reverse
    (fun l => List.reverse_perm l) (exampleFs (.map exampleStorages)) env ce [go!"-c", go!"config.yaml"] () exampleStorages example_configured
    [.listen true, .acceptFails, .conn (.accept 7), .conn (.deliver 7 frames.flatten)] _ rfl rfl 7 (by simp [acceptedOf]) deviceSends frames
    (device_reports env) hf (by simp [receivedOn, onConns])
  generalize hl : [.listen true, .acceptFails, .conn (.accept 7), .conn (.deliver 7 frames.flatten)] ++ more.map ProgEvent.conn = l at h q1 q2
  have hacc : 7 ∈ acceptedOf l := by rw [← hl]; simp [acceptedOf]
  obtain ⟨addr, stores, w1, hrun⟩ := started_as (by rw [← hl]; simp) h
  have hx := h
  rw [hrun] at hx
  have ha := accepting_of rfl hx hacc
  have hlater : ∀ n, ∃ q : Program (Unit × List Call) (ConnErr Unit), p.exec env ce stores (List.replicate n .acceptFails) = some q ∧
      q.sys = p.sys ∧ q.srv.phase = .accepting := by
    intro n
    induction n with
    | zero => exact ⟨p, rfl, rfl, ha⟩
    | succ n ih =>
      obtain ⟨q, g1, g2, g3⟩ := ih
      refine ⟨{ q with srv := { q.srv with errors := q.srv.errors + 1 } }, ?_, g2, g3⟩
      rw [List.replicate_succ', Program.exec_append, g1]
      simp [Program.exec, Program.step, g2, hc, Srv.step, g3, acceptBody]
  refine ⟨thenIdle l, frames, l.length, ?_, ?_, ?_, hf, ?_⟩
  · intro n
    rw [thenIdle_upTo, hrun, Program.exec_append]
    by_cases hn : n < l.length
    · rw [show n - l.length = 0 by omega]
      have := hx
      rw [← List.take_append_drop n l, Program.exec_append, Option.bind_eq_some_iff] at this
      obtain ⟨r, hr, _⟩ := this
      rw [hr]
      rfl
    · rw [List.take_of_length_le (by omega), hx]
      obtain ⟨q, g1, _⟩ := hlater (n - l.length)
      rw [Option.bind_some, g1]
      rfl
  · intro n
    refine ⟨n + l.length, by omega, .inr ?_⟩
    rintro ⟨ev, hev, hsome⟩
    rw [thenIdle_upTo, List.take_of_length_le (by omega), hrun, List.append_assoc, Program.exec_append, hx, Option.bind_some, Program.exec_append] at hsome
    obtain ⟨q, g1, g2, g3⟩ := hlater (n + l.length - l.length)
    rw [g1] at hsome
    rw [hrun] at q1 q2
    have s1 := Program.quiet hx ha (by simp) q1
    have s2 := Program.quiet hx ha (by simp) q2
    rcases hev with rfl | rfl <;> simp [Program.exec, Program.step, g2, g3, s1, s2] at hsome
  · rw [thenIdle_upTo, List.take_of_length_le (by omega)]
    simpa using hacc
  · intro n hn
    rw [thenIdle_upTo, List.take_of_length_le (by omega)]
    have e1 : onConns (l ++ List.replicate (n - l.length) .acceptFails) = onConns l := by
      unfold onConns
      rw [List.filterMap_append]
      simp
    have e2 : onConns l = [.accept 7, .deliver 7 frames.flatten] ++ more := by
      rw [← hl]
      unfold onConns
      rw [List.filterMap_append, List.filterMap_map]
      congr 1
      exact List.filterMap_some
    rw [e1, e2, endingOf_own hm, receivedOn_append, show receivedOn 7 more = [] from ?_]
    · exact ⟨by simp [receivedOn], rfl⟩
    · unfold receivedOn
      rw [List.flatMap_eq_nil_iff]
      intro ev h3
      rcases hm ev h3 with rfl | rfl <;> rfl

/-- What C94 says of it. -/
example (env : Env) (ce : Nat → ConnEnv) : ∃ f : Nat → ProgEvent, ∃ n, ∀ m ≥ n, ∃ p,
    receiverRun (recorder (fun (_ : Call) () => ((), (none : Option Unit)))) List.reverse (exampleFs (.map exampleStorages)) env ce
      [go!"-c", go!"config.yaml"] ((), []) (upTo f m) = some p ∧
    Arrived env (ce 7).clock deviceSends exampleStorages p.sys.world.2 (writes (p.sys.doneBy 7)) := by
  obtain ⟨f, frames, n0, h1, h2, h3, h4, h5⟩ := example_forever env ce
  exact ⟨f, C94_arrives _ (fun _ _ => rfl) _ (fun l => List.reverse_perm l) _ env ce _ () exampleStorages example_configured f 7 h1 h2 n0 h3 deviceSends
    frames (device_reports env) h4 fun n hn => (h5 n hn).1⟩

end Egts
