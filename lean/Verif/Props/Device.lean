import Verif.Spec.Device
import Verif.Props.Acked
import Verif.Props.Output

/-! # A device that keeps what has not been acknowledged loses nothing (C97) -/

namespace Egts

variable {W E : Type}

/-- The beginning of a sequence of frames: some of them, and the beginning of another one. -/
theorem prefix_frames {b : Bytes} {frames : List Bytes} (h : b <+: frames.flatten) :
    ∃ j t, j ≤ frames.length ∧ b = (frames.take j).flatten ++ t ∧ (t = [] ∨ ∃ f, frames[j]? = some f ∧ t <+: f ∧ t ≠ f) := by
  induction frames generalizing b with
  | nil => exact ⟨0, [], Nat.le_refl _, by simpa using h, .inl rfl⟩
  | cons f frames ih =>
    rw [List.flatten_cons] at h
    by_cases hl : b.length < f.length
    · refine ⟨0, b, Nat.zero_le _, rfl, .inr ⟨f, rfl, ?_, ?_⟩⟩
      · exact List.prefix_of_prefix_length_le h (List.prefix_append _ _) (by omega)
      · rintro rfl; omega
    · obtain ⟨b', rfl⟩ := List.prefix_of_prefix_length_le (List.prefix_append f frames.flatten) h (by omega)
      obtain ⟨j, t, h1, h2, h3⟩ := ih ((List.prefix_append_right_inj f).mp h)
      refine ⟨j + 1, t, by simpa using h1, ?_, h3⟩
      rw [h2]
      simp

/-- Complete packets are found in one way only. -/
theorem frames_prefix {a b : List Bytes} (ha : ∀ g ∈ a, WellFramed g) (hb : ∀ g ∈ b, WellFramed g) (h : a.flatten <+: b.flatten) : a <+: b := by
  induction a generalizing b with
  | nil => exact List.nil_prefix
  | cons f a ih =>
    have hf := ha f (by simp)
    cases b with
    | nil =>
      have h1 := h.length_le
      have h2 := hf.2.1
      simp at h1
      rw [h1.1] at h2
      exact absurd h2 (by decide)
    | cons g b =>
      obtain ⟨t, ht⟩ := h
      simp only [List.flatten_cons, List.append_assoc] at ht
      have h1 := readPacket_framed (t := a.flatten ++ t) .blocked hf
      rw [ht, readPacket_framed .blocked (hb g (by simp))] at h1
      simp only [ReadOut.packet.injEq] at h1
      obtain ⟨rfl, h2⟩ := h1
      rw [List.prefix_cons_inj]
      exact ih (fun g hg => ha g (by simp [hg])) (fun g hg => hb g (by simp [hg])) ⟨t, h2.symm⟩

/-- The members of a list of lists, with their place. -/
theorem mem_flatten_at {α : Type} {l : List (List α)} {m : Nat} {w : α} (h : l.flatten[m]? = some w) :
    ∃ i r ws, l[i]? = some ws ∧ m = (l.take i).flatten.length + r ∧ ws[r]? = some w := by
  induction l generalizing m with
  | nil => cases h
  | cons a l ih =>
    rw [List.flatten_cons] at h
    by_cases hm : m < a.length
    · rw [List.getElem?_append_left hm] at h
      exact ⟨0, m, a, rfl, by simp, h⟩
    · rw [List.getElem?_append_right (by omega)] at h
      obtain ⟨i, r, ws, h1, h2, h3⟩ := ih h
      refine ⟨i + 1, r, ws, h1, ?_, h3⟩
      simp only [List.take_succ_cons, List.flatten_cons, List.length_append]
      omega

theorem dueRecords_snoc (now : Nat → Int) (sent : List (Package × List ServiceDataRecord)) (x : Package × List ServiceDataRecord) :
    ∃ a, dueRecords now (sent ++ [x]) = a ++ stored x.1.packetIdentifier (now sent.length) (lastOr (idsSent (sent ++ [x]) sent.length) 0) x.2 := by
  unfold dueRecords
  rw [List.zipIdx_append, List.flatMap_append]
  refine ⟨_, congrArg _ ?_⟩
  simp

theorem forall₂_append_left {α β : Type} {R : α → β → Prop} {a a' : List α} {l : List β} (h : List.Forall₂ R (a ++ a') l) :
    ∃ l1 l2, l = l1 ++ l2 ∧ List.Forall₂ R a l1 ∧ List.Forall₂ R a' l2 := by
  induction a generalizing l with
  | nil => exact ⟨[], l, rfl, .nil, h⟩
  | cons b a ih =>
    cases h with
    | cons h1 h2 =>
      obtain ⟨l1, l2, rfl, h3, h4⟩ := ih h2
      exact ⟨_ :: l1, l2, rfl, .cons h1 h3, h4⟩

/-- What is written on a connection on which a device sends packets, of which the last may be cut off. -/
theorem writes_cut (env : Env) (ce : ConnEnv) (sent : List (Package × List ServiceDataRecord)) (frames : List Bytes)
    (hr : ∀ x ∈ sent, Report env x.1 x.2) (hf : List.Forall₂ (fun x f => (x.1.encode env none).2 = .ok f) sent frames) (b : Bytes)
    (hb : b <+: frames.flatten) (e : End) :
    ∃ j t answers, j ≤ frames.length ∧ b = (frames.take j).flatten ++ t ∧ List.Forall₂ (Answers env) (sent.take j) answers ∧
      writes (handleConn env ce b e) = answers.flatten := by
  have hs : List.Forall₂ (SentAs env) sent frames := forall₂_mono_mem (fun x hx f h => ⟨hr x hx, h⟩) hf
  obtain ⟨j, t, h1, rfl, h3⟩ := prefix_frames hb
  obtain ⟨hw, hn⟩ := frames_good ce (List.forall₂_take j hs)
  obtain ⟨_, answers, t2, t3⟩ := C82_totals env ce (sent.take j) (frames.take j) (fun x hx => hr x (List.mem_of_mem_take hx)) (List.forall₂_take j hf) e
  refine ⟨j, t, answers, h1, rfl, t2, ?_⟩
  rcases h3 with rfl | ⟨f, h4, h5, h6⟩
  · rw [List.append_nil, t3]
  by_cases ht : t = []
  · rw [ht, List.append_nil, t3]
  have hwf : WellFramed f := (frames_good ce hs).1 f (List.mem_of_getElem? h4)
  obtain ⟨c1, c2, c3⟩ := C43_cut_frame env ce (frames.take j) f t hw hn hwf h5 ht h6
  obtain ⟨p1, p2, p3⟩ := C42_pipelined env ce (frames.take j) hw hn
  rw [← t3]
  cases e with
  | blocked => rw [c3, p1]
  | eof => rw [c1, p2, writes_append, writes_append]; rfl
  | error => rw [c2, p3]

/-- What has been written on a connection is the beginning of what would be written on it alone. -/
theorem run_writes {lib : Lib W E} {order : List (Bytes × Params) → List (Bytes × Params)} {fs : Bytes → Option Yaml}
    {env : Env} {ce : Nat → ConnEnv} {argv : List Bytes} {w : W} {evs : List ProgEvent} {p : Program W (ConnErr E)}
    (h : receiverRun lib order fs env ce argv w evs = some p) (k : Nat) :
    writes (p.sys.doneBy k) <+: writes (handleConn env (ce k) (receivedOn k (onConns evs)) (endingOf k (onConns evs))) := by
  obtain ⟨stores, w1, hsys⟩ : ∃ (stores : _) (w1 : _), Fine.exec env ce stores { world := w1 } (onConns evs) = some p.sys := by
    rcases receiverRun_cases h with ⟨h1, _, _, h2⟩ | ⟨addr, ttl, stores, w', _, hx⟩
    · rw [h1, h2]
      exact ⟨[], _, rfl⟩
    · exact ⟨stores, w', (Program.exec_parts hx).2.1⟩
  obtain ⟨t, ht⟩ := C88_isolated env ce stores w1 _ _ hsys k
  rw [← ht, writes_append]
  exact List.prefix_append _ _

/-- What a device has read an acknowledgement for has been delivered to all configured storages, however the connection, the receiver and the
other connections have fared, and wherever the streams have been cut off. -/
theorem C97_acknowledged (lib : Lib W E) (hok : ∀ c w, (lib c w).2 = none) (env : Env) (ss : List (Bytes × Yaml)) (s : Session W E)
    (hs : s.Possible lib env ss) (x : Package × List ServiceDataRecord) (hx : s.Acknowledged env x) : s.Delivered ss x := by
  obtain ⟨hmem, pre, w, post, sp, q, r, hback, hpre, hw, hdec, _, hbody, hrid, _⟩ := hx
  have hwr := run_writes hs.run s.k
  obtain ⟨j, t, answers, hj, hb, hans, hwrites⟩ := writes_cut env (s.ce s.k) s.sent s.frames hs.reports hs.encoded _ hs.received (endingOf s.k (onConns s.evs))
  have hframed := C62_writes_framed env (s.ce s.k) (receivedOn s.k (onConns s.evs)) (endingOf s.k (onConns s.evs))
  have hp : pre ++ [w] <+: writes (s.p.sys.doneBy s.k) := by
    refine frames_prefix (fun g hg => ?_) (fun g hg => hframed g (hwr.subset hg)) ?_
    · rcases List.mem_append.mp hg with hg | hg
      · exact hpre g hg
      · rw [List.mem_singleton.mp hg]; exact hw
    · refine List.IsPrefix.trans ?_ hs.read
      rw [hback, List.flatten_append, List.flatten_singleton]
      exact List.prefix_append _ _
  have hlen : pre.length < (writes (s.p.sys.doneBy s.k)).length := by
    have := hp.length_le
    simp at this
    omega
  have hget : answers.flatten[pre.length]? = some w := by
    obtain ⟨t', ht'⟩ := hp.trans hwr
    rw [← hwrites, ← ht']
    simp
  obtain ⟨i, m, ws, h1, h2, h3⟩ := mem_flatten_at hget
  obtain ⟨hi, rfl⟩ := List.getElem?_eq_some_iff.mp h1
  obtain ⟨hl, hall⟩ := List.forall₂_iff_get.mp hans
  obtain ⟨ack, hack, hws⟩ := hall i (by omega) hi
  simp only [List.get_eq_getElem, List.getElem_take] at hack hws
  rw [hws] at h3
  have hij : i < j ∧ i < s.sent.length := by
    rw [← hl, List.length_take] at hi
    omega
  have hm : m = 0 ∧ ack = w := by
    match m with
    | 0 => exact ⟨rfl, Option.some.inj h3⟩
    | m + 1 =>
      exfalso
      rw [List.getElem?_cons_succ] at h3
      split at h3
      · match m with
        | 0 =>
          obtain rfl := Option.some.inj h3
          obtain ⟨q', e, hq'⟩ := resultPacket_decode env none {} (s.sent[i]'hij.2).1.packetIdentifier sp
          rw [hdec] at hq'
          cases hq'
        | m + 1 => cases h3
      · cases h3
  obtain ⟨rfl, rfl⟩ := hm
  obtain ⟨q', e1, _, _, e2⟩ := hack {} sp
  rw [hdec] at e1
  cases e1
  rw [hbody] at e2
  cases e2
  have hxi : s.sent[i]'hij.2 = x := hs.numbers _ (List.getElem_mem _) _ hmem hrid
  have htake : s.sent.take i ++ [x] = s.sent.take (i + 1) := by
    rw [List.take_succ_eq_append_getElem hij.2, hxi]
  have hfl : s.frames.length = s.sent.length := hs.encoded.length_eq.symm
  obtain ⟨cfg, got, g1, g2, g3, g4⟩ := C93_device lib hok s.order hs.order s.fs env s.ce s.argv s.w0 ss hs.configured s.evs s.p hs.run s.k (s.sent.take i) x
    (s.frames.take (i + 1)) (((s.frames.take j).drop (i + 1)).flatten ++ t)
    (fun y hy => hs.reports y (List.mem_of_mem_take (htake ▸ hy)))
    (by rw [htake]; exact List.forall₂_take _ hs.encoded)
    (by
      rw [hb, ← List.append_assoc, ← List.flatten_append]
      congr 2
      have : s.frames.take (i + 1) = (s.frames.take j).take (i + 1) := by rw [List.take_take, Nat.min_eq_left (by omega)]
      rw [this, List.take_append_drop])
    (by
      have hti : List.Forall₂ (Answers env) (s.sent.take i) (answers.take i) := by
        have := List.forall₂_take i hans
        rwa [List.take_take, Nat.min_eq_left (by omega)] at this
      rw [← answers_length hti]
      omega)
  obtain ⟨a, ha⟩ := dueRecords_snoc (s.ce s.k).clock (s.sent.take i) x
  have hil : (s.sent.take i).length = i := by rw [List.length_take]; omega
  rw [ha, hil, htake] at g2
  obtain ⟨got1, got2, rfl, k1, k2⟩ := forall₂_append_left g2
  have hids : idsSent (s.sent.take (i + 1)) i = idsSent s.sent i := by
    unfold idsSent
    rw [List.take_take, Nat.min_eq_left (by omega)]
  rw [hids] at k2
  refine ⟨i, cfg, got2, ?_, g1, k2, fun r hr => g3 r (List.mem_append_right _ hr), List.Sublist.trans ?_ g4⟩
  · rw [List.getElem?_eq_getElem hij.2, hxi]
  · rw [List.flatMap_append]
    exact List.sublist_append_right _ _

/-- At every moment, after any number of sessions with any number of receivers, which may have crashed: each packet that a device has made is
among those it keeps, or has been delivered to all configured storages. -/
theorem C97_nothing_lost (lib : Lib W E) (hok : ∀ c w, (lib c w).2 = none) (env : Env) (ss : List (Bytes × Yaml)) (sessions : List (Session W E))
    (hs : ∀ s ∈ sessions, s.Possible lib env ss) (todo : List (Package × List ServiceDataRecord)) (x : Package × List ServiceDataRecord) (hx : x ∈ todo) :
    x ∈ kept env sessions todo ∨ ∃ s ∈ sessions, s.Delivered ss x := by
  classical
  by_cases h : ∀ s ∈ sessions, ¬ s.Acknowledged env x
  · left
    unfold kept
    rw [List.mem_filter]
    exact ⟨hx, decide_eq_true h⟩
  · right
    push Not at h
    obtain ⟨s, h1, h2⟩ := h
    exact ⟨s, h1, C97_acknowledged lib hok env ss s (hs s h1) x h2⟩

/-- Under whose identifier: if the first record of a packet has an identifier, what was sent before on the connection makes no difference. -/
theorem C97_own_identifier (pid : UInt16) (now : Int) (c c' : UInt32) (r : ServiceDataRecord) (recs : List ServiceDataRecord) (h : r.ids ≠ []) :
    stored pid now c (r :: recs) = stored pid now c' (r :: recs) := by
  unfold stored
  refine List.filterMap_congr fun x _ => ?_
  have : ∀ d, lastOr (((r :: recs).take (x.2 + 1)).flatMap (·.ids)) d = lastOr (((r :: recs).take (x.2 + 1)).flatMap (·.ids)) 0 := by
    intro d
    have hne : ((r :: recs).take (x.2 + 1)).flatMap (·.ids) ≠ [] := by
      rw [List.take_succ_cons, List.flatMap_cons]
      intro h0
      exact h (List.append_eq_nil_iff.mp h0).1
    unfold lastOr
    rw [List.getLast?_eq_some_getLast hne]
    rfl
  simp only [this c, this c']

example : (genRecord genExample).ids = [133552] := by decide

/-- The keeping comes to an end: as long as the process lives and has received what was sent, the goroutine of the connection can by its own
steps alone come to a point where, after the device has read what has been written, it keeps none of the packets of this session. -/
theorem C97_progress (lib : Lib W E) (hok : ∀ c w, (lib c w).2 = none) (env : Env) (ss : List (Bytes × Yaml)) (s : Session W E)
    (hs : s.Possible lib env ss) (hc : s.p.sys.crashed = false) (hk : s.k ∈ acceptedOf s.evs) (hrec : receivedOn s.k (onConns s.evs) = s.frames.flatten) :
    ∃ more p, (∀ ev ∈ more, ev = .iterate s.k ∨ ev = .effect s.k) ∧ p.sys.crashed = false ∧ (s.goesOn more p).Possible lib env ss ∧
      ∀ x ∈ s.sent, (s.goesOn more p).Acknowledged env x := by
  obtain ⟨more, p, h1, h2, h3, _, _, cfg, got, answers, _, _, _, _, h4, h5⟩ := C87_eventually lib hok s.order hs.order s.fs env s.ce s.argv s.w0 ss
    hs.configured s.evs s.p hs.run hc s.k hk s.sent s.frames hs.reports hs.encoded hrec
  refine ⟨more, p, h1, h3, ?_, ?_⟩
  · refine ⟨hs.order, hs.configured, h2, hs.reports, hs.encoded, ?_, List.prefix_rfl, hs.numbers⟩
    have hm : receivedOn s.k (onConns (s.evs ++ more.map .conn)) = receivedOn s.k (onConns s.evs) := by
      have : onConns (more.map .conn) = more := by
        unfold onConns
        rw [List.filterMap_map]
        exact List.filterMap_some
      unfold onConns at this ⊢
      rw [List.filterMap_append, this, receivedOn_append, show receivedOn s.k more = [] from ?_, List.append_nil]
      unfold receivedOn
      rw [List.flatMap_eq_nil_iff]
      intro ev h
      rcases h1 ev h with rfl | rfl <;> rfl
    show receivedOn s.k (onConns (s.evs ++ more.map .conn)) <+: _
    rw [hm]
    exact hs.received
  · intro x hx
    refine ⟨hx, ?_⟩
    obtain ⟨i, hi, rfl⟩ := List.getElem_of_mem hx
    obtain ⟨hl, hall⟩ := List.forall₂_iff_get.mp h4
    obtain ⟨ack, hack, hws⟩ := hall i hi (hl ▸ hi)
    simp only [List.get_eq_getElem] at hack hws
    obtain ⟨q, d1, d2, _, d3⟩ := hack {} []
    have hframed : ∀ g ∈ answers.flatten, WellFramed g := by
      rw [← h5]
      intro g hg
      exact C62_writes_framed env (s.ce s.k) _ _ g ((run_writes h2 s.k).subset hg)
    have hsplit : ∃ rest, answers.flatten = (answers.take i).flatten ++ ack :: rest := by
      refine ⟨(answers[i]'(hl ▸ hi)).drop 1 ++ (answers.drop (i + 1)).flatten, ?_⟩
      conv => lhs; rw [← List.take_append_drop i answers, List.drop_eq_getElem_cons (hl ▸ hi)]
      rw [hws]
      simp
    obtain ⟨rest, hsplit⟩ := hsplit
    refine ⟨(answers.take i).flatten, ack, rest.flatten, [], q, _, ?_, ?_, ?_, d1, d2, d3, rfl, rfl⟩
    · show (writes (p.sys.doneBy s.k)).flatten = _
      rw [h5, hsplit]
      simp
    · intro g hg
      exact hframed g (by rw [hsplit]; exact List.mem_append_left _ hg)
    · exact hframed ack (by rw [hsplit]; simp)

/-- The device of C82 sends a login and a position. Its connection is cut off; later it sends both again, to a receiver started anew, and keeps
nothing. -/
example (env : Env) (ce : Nat → ConnEnv) : ∃ sessions : List (Session Unit Unit),
    (∀ s ∈ sessions, s.Possible (fun _ () => ((), none)) env exampleStorages) ∧ sessions.length = 2 ∧ (∀ s ∈ sessions, s.sent = deviceSends) ∧
    kept env (sessions.take 1) deviceSends = deviceSends ∧ kept env sessions deviceSends = [] := by
  classical
  obtain ⟨frames, hf⟩ := device_frames env
  have hnum : ∀ x ∈ deviceSends, ∀ y ∈ deviceSends, x.1.packetIdentifier = y.1.packetIdentifier → x = y := by
    intro x hx y hy h
    simp only [deviceSends, List.mem_cons, List.not_mem_nil, or_false] at hx hy
    rcases hx with rfl | rfl <;> rcases hy with rfl | rfl
    · rfl
    · exact absurd h (by decide)
    · exact absurd h (by decide)
    · rfl
  let s (b : Bytes) (p : Program (Unit × List Call) (ConnErr Unit)) : Session Unit Unit :=
    { order := List.reverse, fs := exampleFs (.map exampleStorages), ce := ce, argv := [go!"-c", go!"config.yaml"], w0 := ()
      evs := [.listen true, .conn (.accept 7), .conn (.deliver 7 b)], p := p, k := 7, sent := deviceSends, frames := frames, back := [] }
  have hs : ∀ b, b <+: frames.flatten → ∃ p, p.sys.crashed = false ∧ (s b p).Possible (fun _ () => ((), none)) env exampleStorages := by
    intro b hb
    have hrun : receiverRun (recorder (fun (_ : Call) () => ((), (none : Option Unit)))) List.reverse (exampleFs (.map exampleStorages)) env ce
      [go!"-c", go!"config.yaml"] ((), []) [.listen true, .conn (.accept 7), .conn (.deliver 7 b)] = some _ := rfl
    refine ⟨_, ?_, fun l => List.reverse_perm l, example_configured, hrun, device_reports env, hf, ?_, List.nil_prefix, hnum⟩
    · rfl
    · simpa [receivedOn, onConns, s] using hb
  obtain ⟨p1, _, h1⟩ := hs (frames.flatten.take 20) (List.take_prefix _ _)
  obtain ⟨p2, c2, h2⟩ := hs frames.flatten List.prefix_rfl
  obtain ⟨more, p3, _, _, h3, h4⟩ := C97_progress (fun (_ : Call) () => ((), (none : Option Unit))) (fun _ _ => rfl) env exampleStorages _ h2 c2
    (by simp [acceptedOf, s]) (by simp [receivedOn, onConns, s])
  refine ⟨[s (frames.flatten.take 20) p1, (s frames.flatten p2).goesOn more p3], ?_, rfl, ?_, ?_, ?_⟩
  · simpa using ⟨h1, h3⟩
  · simp [s, Session.goesOn]
  · unfold kept
    rw [List.filter_eq_self]
    intro x hx
    refine decide_eq_true ?_
    intro s' hs' ⟨_, pre, w, post, _, _, _, hb, _, hw, _⟩
    obtain rfl : s' = s (frames.flatten.take 20) p1 := by simpa using hs'
    have hl := hw.2.1
    have := congrArg List.length hb
    simp [s] at this
    omega
  · unfold kept
    rw [List.filter_eq_nil_iff]
    intro x hx h
    exact of_decide_eq_true h _ (by simp) (h4 x hx)

end Egts
