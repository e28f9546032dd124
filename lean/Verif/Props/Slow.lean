import Verif.Proofs.Slow
import Verif.Props.Fine
import Verif.Props.Timed
import Verif.Props.Output
import Verif.Props.Numbers

/-! # Clients that do not read their answers (C96) -/

namespace Egts

variable {W E : Type}

/-- What is handed over to the client of connection `k` is always a beginning of the answers that a receiver serving this connection alone would
write, and no more than there has been room for. -/
theorem C96_got (env : Env) (ce : Nat → ConnEnv) (stores : List (Saver W E)) (w : W) (room : Nat → Nat) (evs : List SlowEvent) (s : Slow W E)
    (hs : Slow.exec env ce stores { sys := { world := w }, room := room } evs = some s) (k : Nat) :
    s.got k <+: (writes (handleConn env (ce k) (receivedOn k (connEvents evs)) (endingOf k (connEvents evs)))).flatten ∧
    (s.got k).length ≤ room k + readBy k evs := by
  have hok := Slow.ok hs k
  obtain ⟨evs', h1, h2, h3⟩ := Slow.fine hs
  have hp : ∀ a b : List Effect, a <+: b → (writes a).flatten <+: (writes b).flatten := by
    rintro a b ⟨t, rfl⟩
    rw [writes_append, List.flatten_append]
    exact List.prefix_append _ _
  refine ⟨?_, by have := hok.room; omega⟩
  cases hsend : s.sending k with
  | none =>
    have := C88_isolated env ce stores w evs' s.sys h1 k
    rw [h2, h3] at this
    exact (hok.quiet hsend).trans (hp _ _ this)
  | some r =>
    obtain ⟨b, hb, hg, _⟩ := hok.busy r hsend
    have : s.sys.doneBy k ++ [.write b] <+: handleConn env (ce k) (receivedOn k (connEvents evs)) (endingOf k (connEvents evs)) := by
      obtain ⟨a1, c, rest, a2, a3⟩ := nextWrite_some hb
      obtain ⟨_, evs'', g1, g2, g3, _⟩ := Fine.exec_abs h1
      have hinv := SysInv.exec evs'' g1 k
      rw [show s.sys.abs.conns k = _ from Fine.conn_none a2 a1] at hinv
      have := (hinv.perform a3).prefix
      rwa [g2, g3, h2, h3, doneBy_abs] at this
    have := hp _ _ this
    rw [writes_flatten_append] at this
    exact hg.trans this

/-- What a connection comes to whose client reads less than everything, exactly. The goroutine of connection `k` can make no step, and the
connection has not failed: then either it has done all there is to do, or it is inside `conn.Write` of a packet that does not fit into the room
that there has been; so many bytes have been handed over. -/
theorem C96_exact (env : Env) (ce : Nat → ConnEnv) (stores : List (Saver W E)) (w : W) (room : Nat → Nat) (evs : List SlowEvent) (s : Slow W E)
    (hs : Slow.exec env ce stores { sys := { world := w }, room := room } evs = some s) (hc : s.sys.crashed = false) (k : Nat)
    (hk : (s.sys.conns k).isSome) (hb : s.broken k = false) (hstands : s.Stands env ce stores k) :
    let all := handleConn env (ce k) (receivedOn k (connEvents evs)) (endingOf k (connEvents evs))
    s.got k = (writes all).flatten.take (room k + readBy k evs) ∧
    (s.sys.doneBy k = all ∧ (writes all).flatten.length ≤ room k + readBy k evs ∨
      ∃ b rest, all = s.sys.doneBy k ++ .write b :: rest ∧
        (writes (s.sys.doneBy k)).flatten.length ≤ room k + readBy k evs ∧
        room k + readBy k evs < (writes (s.sys.doneBy k)).flatten.length + b.length) := by
  intro all
  have hok := Slow.ok hs k
  have hroom := hok.room
  obtain ⟨hgot, hlen⟩ := C96_got env ce stores w room evs s hs k
  obtain ⟨evs', h1, h2, h3⟩ := Slow.fine hs
  obtain ⟨s1, s2⟩ := hstands
  cases hsend : s.sending k with
  | none =>
    have heq := (hok.whole hb).1 hsend
    have hn : s.sys.nextWrite k = none := by
      cases hn : s.sys.nextWrite k with
      | none => rfl
      | some b => simp [Slow.step, hsend, hn, hc] at s2
    simp only [Slow.step, Option.map_eq_none_iff, hsend, hn] at s1 s2
    have := C88_complete env ce stores w evs' s.sys h1 k hk s1 s2 hc
    rw [h2, h3] at this
    rw [this] at heq
    have hl : (writes all).flatten.length ≤ room k + readBy k evs := by rw [← heq]; omega
    exact ⟨by rw [List.take_of_length_le hl]; exact heq, .inl ⟨this, hl⟩⟩
  | some r =>
    obtain ⟨b, hnb, _, hrb⟩ := hok.busy r hsend
    have heq := (hok.whole hb).2 r b hsend hnb
    have hfull : r ≠ [] ∧ s.room k = 0 := by
      obtain ⟨q, hq, _⟩ := write_step (env := env) (ce := ce) (stores := stores) hc hnb
      simp only [Slow.step, hsend, hb, hq, hc] at s2
      split at s2
      · simp at s2
      · rename_i hr
        split at s2
        · rename_i hz
          exact ⟨by simpa using hr, by simpa using hz⟩
        · cases s2
    have hpre : s.sys.doneBy k ++ [.write b] <+: all := by
      obtain ⟨q, hq, hq2, _⟩ := write_step (env := env) (ce := ce) (stores := stores) hc hnb
      have hx : Fine.exec env ce stores { world := w } (evs' ++ [.effect k]) = some q := by
        rw [Fine.exec_append, h1]
        simp [Fine.exec, hq]
      have := C88_isolated env ce stores w _ q hx k
      rw [hq2, receivedOn_append, endingOf_append, h2, h3] at this
      rwa [show receivedOn k [Event.effect k] = [] from rfl, List.append_nil] at this
    have hrl := List.length_pos_of_ne_nil hfull.1
    have hl := congrArg List.length heq
    simp only [List.length_append] at hl
    obtain ⟨rest, hrest⟩ := hpre
    have hflat : (writes (s.sys.doneBy k)).flatten.length ≤ (s.got k).length := by omega
    refine ⟨?_, .inr ⟨b, rest, by rw [← hrest]; simp, by omega, by omega⟩⟩
    rw [List.prefix_iff_eq_take] at hgot
    rw [hgot]
    congr 1
    omega

/-- If the client reads all answers, everything is done that a receiver serving this connection alone does. -/
theorem C96_served_partial (env : Env) (ce : Nat → ConnEnv) (stores : List (Saver W E)) (w : W) (room : Nat → Nat) (evs : List SlowEvent) (s : Slow W E)
    (hs : Slow.exec env ce stores { sys := { world := w }, room := room } evs = some s) (hc : s.sys.crashed = false) (k : Nat)
    (hk : (s.sys.conns k).isSome) (hb : s.broken k = false) (hstands : s.Stands env ce stores k)
    (hroom : (writes (handleConn env (ce k) (receivedOn k (connEvents evs)) (endingOf k (connEvents evs)))).flatten.length ≤ room k + readBy k evs) :
    s.sys.doneBy k = handleConn env (ce k) (receivedOn k (connEvents evs)) (endingOf k (connEvents evs)) ∧
    s.got k = (writes (s.sys.doneBy k)).flatten := by
  obtain ⟨h1, h2 | ⟨b, rest, h2, h3, h4⟩⟩ := C96_exact env ce stores w room evs s hs hc k hk hb hstands
  · refine ⟨h2.1, ?_⟩
    rw [h1, h2.1, List.take_of_length_le hroom]
  · exfalso
    rw [h2] at hroom
    have : (writes (s.sys.doneBy k ++ .write b :: rest)).flatten.length = (writes (s.sys.doneBy k)).flatten.length + (b.length + (writes rest).flatten.length) := by
      simp [writes, List.filterMap_append]
    omega

/-- A client harms no other: from every state in which the process lives, whatever the goroutines of other connections wait for, the goroutine of
connection `k` can, if its own client reads, come to the point where it has done everything (or crashes the process). -/
theorem C96_others (env : Env) (ce : Nat → ConnEnv) (stores : List (Saver W E)) (w : W) (room : Nat → Nat) (evs : List SlowEvent) (s : Slow W E)
    (hs : Slow.exec env ce stores { sys := { world := w }, room := room } evs = some s) (hc : s.sys.crashed = false) (k : Nat)
    (hk : (s.sys.conns k).isSome) :
    ∃ (more : List SlowEvent) (s' : Slow W E), (∀ ev ∈ more, IsOwn k ev) ∧
      Slow.exec env ce stores { sys := { world := w }, room := room } (evs ++ more) = some s' ∧
      (s'.sys.crashed = true ∨ s'.sys.doneBy k = handleConn env (ce k) (receivedOn k (connEvents evs)) (endingOf k (connEvents evs))) := by
  obtain ⟨evs', h1, h2, h3⟩ := Slow.fine hs
  obtain ⟨more, q, m1, m2, m3⟩ := C88_never_held_up env ce stores w evs' s.sys h1 hc k hk
  rw [Fine.exec_append, h1, Option.bind_some] at m2
  obtain ⟨more', s', l1, l2, rfl⟩ := Slow.lift m1 m2
  refine ⟨more', s', l1, by rw [Slow.exec_append, hs]; exact l2, ?_⟩
  rwa [h2, h3] at m3

/-- Full statement of C96 (not provable): the receiver gets rid of a client that does not read its answers, and still handles what it has sent.
There is no deadline for writing: if the answers to the first packets do not fit into the room that there is, then whatever else the client sends is
never looked at, and the connection is not closed, also if the client hangs up, however much time passes. -/
theorem C96_false (env : Env) (ce : Nat → ConnEnv) (stores : List (Saver W E)) (w : W) (room : Nat → Nat) (k : Nat) (frames : List Bytes)
    (hf : ∀ f ∈ frames, WellFramed f) (rest : Bytes) (evs : List SlowEvent) (s : Slow W E)
    (hs : Slow.exec env ce stores { sys := { world := w }, room := room } evs = some s)
    (hrec : receivedOn k (connEvents evs) = frames.flatten ++ rest) (hreset : s.broken k = false)
    (hroom : room k + readBy k evs < (writes (handleConn env (ce k) frames.flatten .blocked)).flatten.length) :
    s.sys.doneBy k <+: handleConn env (ce k) frames.flatten .blocked ∧ s.sys.doneBy k ≠ handleConn env (ce k) frames.flatten .blocked ∧
    .close ∉ s.sys.doneBy k := by
  have hblocked : handleConn env (ce k) frames.flatten .blocked = (processAll env (ce k) 0 0 frames).effs := by
    have := handleFrom_frames env (ce k) .blocked 0 0 frames [] hf
    rw [List.append_nil, ← handleConn_eq] at this
    rw [this]
    split
    · rfl
    · rw [handleFrom_eq]; simp [readPacket, headerLen]
  have hwhole : (processAll env (ce k) 0 0 frames).effs <+: handleConn env (ce k) (receivedOn k (connEvents evs)) (endingOf k (connEvents evs)) := by
    rw [hrec, handleConn_eq, handleFrom_frames env (ce k) _ 0 0 frames rest hf]
    split
    · exact List.prefix_rfl
    · exact List.prefix_append _ _
  obtain ⟨evs', h1, h2, h3⟩ := Slow.fine hs
  have hdone := C88_isolated env ce stores w evs' s.sys h1 k
  rw [h2, h3] at hdone
  have hok := Slow.ok hs k
  have hfit : (writes (s.sys.doneBy k)).flatten.length ≤ room k + readBy k evs := by
    have := hok.room
    cases hsend : s.sending k with
    | none =>
      have := (hok.whole hreset).1 hsend
      rw [← this]; omega
    | some r =>
      obtain ⟨b, hnb, _, hrb⟩ := hok.busy r hsend
      have := congrArg List.length ((hok.whole hreset).2 r b hsend hnb)
      simp only [List.length_append] at this
      omega
  rw [hblocked] at hroom ⊢
  have hne : ¬ (processAll env (ce k) 0 0 frames).effs <+: s.sys.doneBy k := by
    rintro ⟨t, ht⟩
    rw [← ht, writes_append, List.flatten_append, List.length_append] at hfit
    omega
  have hpre : s.sys.doneBy k <+: (processAll env (ce k) 0 0 frames).effs :=
    (List.prefix_or_prefix_of_prefix hdone hwhole).resolve_right hne
  refine ⟨hpre, fun h => hne (h ▸ List.prefix_rfl), fun h => not_closing env (ce k) 0 0 frames (hpre.subset h)⟩

theorem positions_writes (env : Env) (ce : ConnEnv) (n : Nat) :
    n ≤ (writes (handleConn env ce (List.replicate n Ex.twoPos).flatten .blocked)).flatten.length ∧ ∀ f ∈ List.replicate n Ex.twoPos, WellFramed f := by
  have hw : WellFramed Ex.twoPos := Ex.framed.1
  have hf : ∀ f ∈ List.replicate n Ex.twoPos, WellFramed f := fun f hf => by rw [(List.mem_replicate.mp hf).2]; exact hw
  have hn : NoPanic env ce (List.replicate n Ex.twoPos) := by
    intro i f h
    rw [(List.mem_replicate.mp (List.mem_of_getElem? h)).2, (Ex.twoPos_accepts env (ce.spare i)).1]
    simp
  refine ⟨?_, hf⟩
  rw [connection_numbers env ce _ hf hn]
  have key : ∀ l : List (Bytes × Nat), (∀ x ∈ l, x.1 = Ex.twoPos) → l.length ≤ ((l.map fun x =>
      writes (handlePacket env (ce.clock x.2) (lastOr (idsBefore env ce (List.replicate n Ex.twoPos) x.2) 0) ⟨x.1, ce.spare x.2⟩).effs).flatten).flatten.length := by
    intro l
    induction l with
    | nil => simp
    | cons x l ih =>
      intro hl
      have ih := ih fun y hy => hl y (by simp [hy])
      have hx := hl x (by simp)
      obtain ⟨ack, h1, _, h2⟩ := C62_ack_length env (ce.clock x.2) (lastOr (idsBefore env ce (List.replicate n Ex.twoPos) x.2) 0) ⟨Ex.twoPos, ce.spare x.2⟩ _ _
        (Ex.twoPos_accepts env (ce.spare x.2)) (by decide)
      simp only [List.map_cons, List.flatten_cons, List.flatten_append, List.length_append, List.length_cons]
      rw [hx]
      obtain ⟨t, ht⟩ : ∃ t, writes (handlePacket env (ce.clock x.2) (lastOr (idsBefore env ce (List.replicate n Ex.twoPos) x.2) 0) ⟨Ex.twoPos, ce.spare x.2⟩).effs = ack :: t := by
        cases hws : writes (handlePacket env (ce.clock x.2) (lastOr (idsBefore env ce (List.replicate n Ex.twoPos) x.2) 0) ⟨Ex.twoPos, ce.spare x.2⟩).effs with
        | nil => rw [hws] at h1; cases h1
        | cons a t => rw [hws] at h1; cases h1; exact ⟨t, rfl⟩
      rw [ht, List.flatten_cons, List.length_append, h2]
      have : (if Ex.twoPosRecs = [] then 16 else 23 + 6 * Ex.twoPosRecs.length) = 29 := by decide
      omega
  have := key (List.replicate n Ex.twoPos).zipIdx (fun x hx => by
    have := List.mem_of_getElem? (List.mem_zipIdx_iff_getElem?.mp hx)
    exact (List.mem_replicate.mp this).2)
  simpa using this

/-- However much room there is: a client can send so many positions that it keeps the connection for ever, if it reads nothing. What it sends
after them (`rest`), be it the most important position of all, is never looked at. -/
theorem C96_false_for_positions (env : Env) (ce : Nat → ConnEnv) (stores : List (Saver W E)) (w : W) (room : Nat → Nat) (k : Nat) (rest : Bytes)
    (evs : List SlowEvent) (s : Slow W E) (hs : Slow.exec env ce stores { sys := { world := w }, room := room } evs = some s)
    (hrec : receivedOn k (connEvents evs) = (List.replicate (room k + 1) Ex.twoPos).flatten ++ rest) (hread : readBy k evs = 0)
    (hreset : s.broken k = false) :
    s.sys.doneBy k <+: handleConn env (ce k) (List.replicate (room k + 1) Ex.twoPos).flatten .blocked ∧ .close ∉ s.sys.doneBy k := by
  obtain ⟨h1, h2⟩ := positions_writes env (ce k) (room k + 1)
  obtain ⟨a, _, b⟩ := C96_false env ce stores w room k _ h2 rest evs s hs hrec hreset (by omega)
  exact ⟨a, b⟩

/-- Such a history: a client for which there is no room sends a position and hangs up; the position is saved, and the goroutine stands. -/
example (env : Env) (ce : Nat → ConnEnv) : ∃ s : Slow Unit Unit,
    Slow.exec env ce [] { sys := { world := () }, room := fun _ => 0 }
      [.conn (.accept 7), .conn (.deliver 7 Ex.twoPos), .conn (.hangup 7 .eof), .conn (.iterate 7), .conn (.effect 7), .conn (.effect 7),
        .conn (.effect 7)] = some s ∧
    s.sys.crashed = false ∧ (s.sys.conns 7).isSome ∧ s.broken 7 = false ∧ s.Stands env ce [] 7 ∧ (saves (s.sys.doneBy 7)).length = 1 ∧ s.got 7 = [] := by
  obtain ⟨ack, _, h2⟩ := handlePacket_app env ((ce 7).clock 0) 0 (Ex.twoPos_accepts env ((ce 7).spare 0)) (by decide)
  obtain ⟨ack', g1, _, g2⟩ := C62_ack_length env ((ce 7).clock 0) 0 ⟨Ex.twoPos, (ce 7).spare 0⟩ _ _ (Ex.twoPos_accepts env ((ce 7).spare 0)) (by decide)
  have hack : ack ≠ [] := by
    rw [h2] at g1
    simp only [writes_append, writes_saves, List.nil_append] at g1
    have : ack = ack' := by simpa [writes] using g1
    rw [this]
    rintro rfl
    exact absurd g2 (by decide)
  rw [if_neg (by decide), List.append_nil] at h2
  obtain ⟨r, hr⟩ : ∃ r, stored (Ex.pkg 59 180 29128 Ex.twoPosRecs).packetIdentifier ((ce 7).clock 0) 0 Ex.twoPosRecs = [r] := ⟨_, rfl⟩
  rw [hr] at h2
  have hread : readPacket Ex.twoPos .eof = .packet Ex.twoPos [] := by
    have := readPacket_framed (t := []) .eof Ex.framed.1
    rwa [List.append_nil] at this
  obtain ⟨cl, hit⟩ : ∃ cl, ({ buf := Ex.twoPos, ending := .eof } : ConnState).iterate env (ce 7) =
      some { ending := .eof, client := cl, count := 1, pending := [.save r, .write ack] } := by
    simp only [ConnState.iterate, hread, h2]
    exact ⟨_, rfl⟩
  have hw : ({ ending := .eof, client := cl, count := 1, pending := [.write ack] } : ConnState).iterate env (ce 7) = none := rfl
  simp [Slow.exec, Slow.step, Fine.step, Fine.set, hit, Fine.offer, Fine.nextWrite, Fine.note, Fine.setSaving, Slow.setSending, Slow.Stands,
    hw, hack, Fine.doneBy, saves, Outcome.effect]

end Egts
