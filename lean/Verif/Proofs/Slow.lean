import Verif.Spec.Slow
import Verif.Proofs.Live

/-! # Lemmas about clients that are slow to read -/

namespace Egts

variable {W E : Type}

theorem Fine.doneBy_congr {s s' : Fine W E} (k : Nat) (h : s'.log = s.log) : s'.doneBy k = s.doneBy k := by
  unfold Fine.doneBy; rw [h]

theorem nextWrite_some {s : Fine W E} {k : Nat} {b : Bytes} (h : s.nextWrite k = some b) :
    s.saving k = none ∧ ∃ c rest, s.conns k = some c ∧ c.pending = .write b :: rest := by
  unfold Fine.nextWrite at h
  split at h
  · rename_i c h1 h2
    split at h
    · rename_i b' rest h3
      cases h
      exact ⟨h1, c, rest, h2, h3⟩
    · cases h
  · cases h

theorem nextWrite_of {s : Fine W E} {k : Nat} {b : Bytes} {c : ConnState} {rest : List Effect} (h1 : s.saving k = none) (h2 : s.conns k = some c)
    (h3 : c.pending = .write b :: rest) : s.nextWrite k = some b := by
  unfold Fine.nextWrite
  simp [h1, h2, h3]

/-- A step of another goroutine, and whatever is not a step of a goroutine, leaves the next write and what has been done. -/
theorem other_step {env : Env} {ce : Nat → ConnEnv} {stores : List (Saver W E)} {s s' : Fine W E} {ev : Event} {k : Nat}
    (h : s.step env ce stores ev = some s') (hne : ev ≠ .effect k) :
    s'.doneBy k = s.doneBy k ∧ ∀ b, s.nextWrite k = some b → s'.nextWrite k = some b := by
  unfold Fine.step at h
  split at h
  · cases h
  · have same : ∀ j (c c' : ConnState), s.conns j = some c → c'.pending = c.pending →
        (s.set j c').doneBy k = s.doneBy k ∧ ∀ b, s.nextWrite k = some b → (s.set j c').nextWrite k = some b := by
      intro j c c' h1 h2
      refine ⟨rfl, fun b hb => ?_⟩
      obtain ⟨a1, d, rest, a2, a3⟩ := nextWrite_some hb
      by_cases hj : k = j
      · subst hj
        rw [h1] at a2; cases a2
        exact nextWrite_of (c := c') a1 (if_pos rfl) (h2.trans a3)
      · exact nextWrite_of (c := d) a1 (by simpa [Fine.set, hj] using a2) a3
    cases ev with
    | accept j =>
      simp only at h
      split at h
      · cases h
      · rename_i hj
        cases h
        refine ⟨rfl, fun b hb => ?_⟩
        obtain ⟨a1, d, rest, a2, a3⟩ := nextWrite_some hb
        have : k ≠ j := by rintro rfl; simp [a2] at hj
        exact nextWrite_of (c := d) a1 (by simpa [Fine.set, this] using a2) a3
    | deliver j x =>
      simp only [Option.bind_eq_some_iff] at h
      obtain ⟨c, hc, h⟩ := h
      split at h
      · cases h; exact same j c _ hc rfl
      · cases h
    | hangup j x =>
      simp only [Option.bind_eq_some_iff] at h
      obtain ⟨c, hc, h⟩ := h
      split at h
      · cases h; exact same j c _ hc rfl
      · cases h
    | iterate j =>
      simp only [Option.bind_eq_some_iff] at h
      obtain ⟨c, hc, h⟩ := h
      split at h
      · cases h
      · simp only [Option.map_eq_some_iff] at h
        obtain ⟨c', hi, rfl⟩ := h
        refine ⟨rfl, fun b hb => ?_⟩
        obtain ⟨a1, d, rest, a2, a3⟩ := nextWrite_some hb
        have : k ≠ j := by
          rintro rfl
          rw [hc] at a2; cases a2
          simp [ConnState.iterate, a3] at hi
        exact nextWrite_of (c := d) a1 (by simpa [Fine.set, this] using a2) a3
    | effect j =>
      have hkj : k ≠ j := by rintro rfl; exact hne rfl
      have keep : ∀ t : Fine W E, t.saving k = s.saving k → t.conns k = s.conns k → ∀ b, s.nextWrite k = some b → t.nextWrite k = some b := by
        intro t t1 t2 b hb
        unfold Fine.nextWrite at hb ⊢
        rw [t1, t2]; exact hb
      have note : ∀ (t : Fine W E) o, t.log = s.log ++ [(j, o)] → t.doneBy k = s.doneBy k := by
        intro t o ht
        unfold Fine.doneBy
        rw [ht]
        simp [List.filter_append, Ne.symm hkj]
      simp only [Option.bind_eq_some_iff] at h
      obtain ⟨c, hc, h⟩ := h
      split at h
      · rename_i r i _
        cases h
        obtain ⟨o1, o2, o3, o4⟩ := s.offer_conns stores j r i
        refine ⟨?_, keep _ (o3 k hkj) (by rw [o1])⟩
        rcases o4 with ⟨_, o5⟩ | ⟨_, e, o5⟩
        · exact Fine.doneBy_congr k o5
        · exact note _ _ o5
      · split at h
        · cases h
        · cases h
          exact ⟨rfl, keep _ (if_neg hkj) (if_neg hkj)⟩
        · cases h
          exact ⟨note _ _ rfl, keep _ rfl (if_neg hkj)⟩
        · cases h
          exact ⟨note _ _ rfl, keep _ rfl (if_neg hkj)⟩

/-- The write gets done. -/
theorem write_step {env : Env} {ce : Nat → ConnEnv} {stores : List (Saver W E)} {s : Fine W E} {k : Nat} {b : Bytes}
    (hc : s.crashed = false) (h : s.nextWrite k = some b) :
    ∃ s', s.step env ce stores (.effect k) = some s' ∧ s'.doneBy k = s.doneBy k ++ [.write b] ∧ s'.crashed = false := by
  obtain ⟨a1, c, rest, a2, a3⟩ := nextWrite_some h
  refine ⟨(s.note k (.other (.write b))).set k { c with pending := rest }, ?_, ?_, hc⟩
  · simp [Fine.step, hc, a1, a2, a3]
  · show (s.note k (.other (.write b))).doneBy k = _
    rw [doneBy_note, if_pos rfl]; rfl

/-- Another effect is not a write. -/
theorem effect_step {env : Env} {ce : Nat → ConnEnv} {stores : List (Saver W E)} {s s' : Fine W E} {k : Nat}
    (h : s.step env ce stores (.effect k) = some s') (hn : s.nextWrite k = none) : writes (s'.doneBy k) = writes (s.doneBy k) := by
  have note : ∀ (t : Fine W E) o, t.log = s.log ++ [(k, o)] → writes [o.effect] = [] → writes (t.doneBy k) = writes (s.doneBy k) := by
    intro t o ht ho
    have : t.doneBy k = s.doneBy k ++ [o.effect] := by
      unfold Fine.doneBy
      rw [ht]
      simp [List.filter_append]
    rw [this, writes, List.filterMap_append]
    unfold writes at ho
    rw [ho, List.append_nil]; rfl
  unfold Fine.step at h
  split at h
  · cases h
  · simp only [Option.bind_eq_some_iff] at h
    obtain ⟨c, hc, h⟩ := h
    split at h
    · rename_i r i _
      cases h
      obtain ⟨o1, o2, o3, o4⟩ := s.offer_conns stores k r i
      rcases o4 with ⟨_, o5⟩ | ⟨_, e, o5⟩
      · rw [Fine.doneBy_congr k o5]
      · exact note _ _ o5 rfl
    · rename_i hsv
      split at h
      · cases h
      · cases h; rfl
      · cases h; exact note _ _ rfl rfl
      · rename_i x rest h1 h2 hp
        cases h
        refine note _ _ rfl ?_
        cases x with
        | write b => rw [nextWrite_of hsv hc hp] at hn; cases hn
        | save r => exact absurd rfl (h1 r)
        | _ => rfl

theorem Slow.exec_append (env : Env) (ce : Nat → ConnEnv) (stores : List (Saver W E)) (s : Slow W E) (a b : List SlowEvent) :
    Slow.exec env ce stores s (a ++ b) = (Slow.exec env ce stores s a).bind fun s => Slow.exec env ce stores s b := by
  induction a generalizing s with
  | nil => rfl
  | cons ev a ih =>
    simp only [List.cons_append, Slow.exec]
    cases s.step env ce stores ev with
    | none => rfl
    | some q => exact ih q

/-- The invariant of what the client of connection `k` gets: `t` bytes of room there have been, all told. -/
structure Slow.Ok (s : Slow W E) (k t : Nat) : Prop where
  room : (s.got k).length + s.room k = t
  quiet : s.sending k = none → s.got k <+: (writes (s.sys.doneBy k)).flatten
  busy : ∀ r, s.sending k = some r → ∃ b, s.sys.nextWrite k = some b ∧ s.got k <+: (writes (s.sys.doneBy k)).flatten ++ b ∧ r.length ≤ b.length
  whole : s.broken k = false →
    (s.sending k = none → s.got k = (writes (s.sys.doneBy k)).flatten) ∧
    ∀ r b, s.sending k = some r → s.sys.nextWrite k = some b → s.got k ++ r = (writes (s.sys.doneBy k)).flatten ++ b

theorem writes_flatten_append (a : List Effect) (b : Bytes) : (writes (a ++ [.write b])).flatten = (writes a).flatten ++ b := by
  simp [writes, List.filterMap_append]

/-- Nothing about connection `k` changes. -/
theorem Slow.Ok.congr {s s' : Slow W E} {k t : Nat} (h : s.Ok k t) (h1 : s'.got k = s.got k) (h2 : s'.room k = s.room k)
    (h3 : s'.sending k = s.sending k) (h4 : s'.broken k = s.broken k) (h5 : writes (s'.sys.doneBy k) = writes (s.sys.doneBy k))
    (h6 : ∀ b, s.sending k ≠ none → s.sys.nextWrite k = some b → s'.sys.nextWrite k = some b) : s'.Ok k t := by
  have key : ∀ r b, s.sending k = some r → s'.sys.nextWrite k = some b → s.sys.nextWrite k = some b := by
    intro r b hr hb
    obtain ⟨b', hb', _⟩ := h.busy r hr
    have := h6 b' (by rw [hr]; simp) hb'
    rw [hb] at this; cases this; exact hb'
  refine ⟨?_, ?_, ?_, ?_⟩
  · rw [h1, h2]; exact h.room
  · rw [h1, h3, h5]; exact h.quiet
  · intro r hr
    rw [h3] at hr
    obtain ⟨b, hb, hg, hl⟩ := h.busy r hr
    exact ⟨b, h6 b (by rw [hr]; simp) hb, by rw [h1, h5]; exact hg, hl⟩
  · rw [h4, h3, h1, h5]
    intro hb
    exact ⟨(h.whole hb).1, fun r b hr hn => (h.whole hb).2 r b hr (key r b hr hn)⟩

theorem Slow.ok_step {env : Env} {ce : Nat → ConnEnv} {stores : List (Saver W E)} {s s' : Slow W E} {ev : SlowEvent} {k t : Nat}
    (h : s.step env ce stores ev = some s') (hk : s.Ok k t) : s'.Ok k (t + readBy k [ev]) := by
  have plain : ∀ e, (s.sys.step env ce stores e).map (fun t => ({ s with sys := t } : Slow W E)) = some s' → e ≠ .effect k → s'.Ok k t := by
    intro e he hne
    simp only [Option.map_eq_some_iff] at he
    obtain ⟨q, hq, rfl⟩ := he
    obtain ⟨d1, d2⟩ := other_step hq hne
    exact hk.congr rfl rfl rfl rfl (by show writes (q.doneBy k) = _; rw [d1]) fun b _ => d2 b
  cases ev with
  | reads j n =>
    cases h
    by_cases hj : k = j
    · subst hj
      refine ⟨?_, hk.quiet, hk.busy, hk.whole⟩
      have := hk.room
      simp [readBy]; omega
    · have : readBy k [.reads j n] = 0 := by simp [readBy, Ne.symm hj]
      rw [this]
      exact hk.congr rfl (if_neg hj) rfl rfl rfl fun _ _ h => h
  | reset j =>
    cases h
    show Slow.Ok _ k (t + 0)
    by_cases hj : k = j
    · subst hj
      exact ⟨hk.room, hk.quiet, hk.busy, fun hb => by simp at hb⟩
    · exact hk.congr rfl rfl rfl (if_neg hj) rfl fun _ _ h => h
  | conn e =>
    show Slow.Ok _ k (t + 0)
    cases e with
    | effect j =>
      simp only [Slow.step] at h
      split at h
      · rename_i b hs
        split at h
        · rename_i hor
          simp only [Option.map_eq_some_iff] at h
          obtain ⟨q, hq, rfl⟩ := h
          by_cases hj : k = j
          · subst hj
            obtain ⟨x, hx, hg, hl⟩ := hk.busy b hs
            have hcr : s.sys.crashed = false := by
              cases hc : s.sys.crashed with
              | false => rfl
              | true => simp [Fine.step, hc] at hq
            obtain ⟨q', g1, g2, _⟩ := write_step (env := env) (ce := ce) (stores := stores) hcr hx
            rw [hq] at g1; cases g1
            have hw : (writes (q.doneBy k)).flatten = (writes (s.sys.doneBy k)).flatten ++ x := by rw [g2, writes_flatten_append]
            refine ⟨hk.room, fun _ => ?_, fun r hr => by simp [Slow.setSending] at hr, fun hb => ⟨fun _ => ?_, fun r _ hr => by simp [Slow.setSending] at hr⟩⟩
            · show s.got k <+: (writes (q.doneBy k)).flatten
              rw [hw]; exact hg
            · show s.got k = (writes (q.doneBy k)).flatten
              rw [hw]
              have hb : s.broken k = false := hb
              rw [hb] at hor
              have hbn : b = [] := by simpa using hor
              have := (hk.whole hb).2 b x hs hx
              rwa [hbn, List.append_nil] at this
          · obtain ⟨d1, d2⟩ := other_step hq (k := k) (by simpa using Ne.symm hj)
            exact hk.congr rfl rfl (if_neg hj) rfl (by show writes (q.doneBy k) = _; rw [d1]) fun b _ => d2 b
        · rename_i hor
          split at h
          · cases h
          · rename_i hroom
            cases h
            by_cases hj : k = j
            · subst hj
              obtain ⟨x, hx, hg, hl⟩ := hk.busy b hs
              have hbr : s.broken k = false := by
                cases hb : s.broken k with
                | false => rfl
                | true => simp [hb] at hor
              have hw := (hk.whole hbr).2 b x hs hx
              have hgot : (s.hand k b).got k = s.got k ++ b.take (s.room k) := if_pos rfl
              have hsend : (s.hand k b).sending k = some (b.drop (s.room k)) := if_pos rfl
              have hall : s.got k ++ b.take (s.room k) ++ b.drop (s.room k) = (writes (s.sys.doneBy k)).flatten ++ x := by
                rw [List.append_assoc, List.take_append_drop]; exact hw
              refine ⟨?_, fun hn => (by rw [hsend] at hn; cases hn), fun r hr => ⟨x, hx, ?_, ?_⟩, fun _ => ⟨fun hn => (by rw [hsend] at hn; cases hn), ?_⟩⟩
              · have : (s.hand k b).room k = s.room k - b.length := if_pos rfl
                rw [hgot, this, List.length_append, List.length_take]
                have := hk.room
                omega
              · rw [hgot]
                show _ <+: (writes (s.sys.doneBy k)).flatten ++ x
                rw [← hall]
                exact List.prefix_append _ _
              · rw [hsend] at hr; cases hr
                rw [List.length_drop]; omega
              · intro r y hr hy
                rw [hsend] at hr; cases hr
                have hy : s.sys.nextWrite k = some y := hy
                rw [hx] at hy; cases hy
                rw [hgot]; exact hall
            · exact hk.congr (if_neg hj) (if_neg hj) (if_neg hj) rfl rfl fun _ _ h => h
      · rename_i hs
        split at h
        · rename_i x hx
          split at h
          · cases h
          · cases h
            by_cases hj : k = j
            · subst hj
              have hsend : (s.setSending k (some x)).sending k = some x := if_pos rfl
              refine ⟨hk.room, fun hn => (by rw [hsend] at hn; cases hn), fun r hr => ⟨x, hx, (hk.quiet hs).trans (List.prefix_append _ _), ?_⟩,
                fun hb => ⟨fun hn => (by rw [hsend] at hn; cases hn), fun r y hr hy => ?_⟩⟩
              · rw [hsend] at hr; cases hr; exact Nat.le_refl _
              · rw [hsend] at hr; cases hr
                have hy : s.sys.nextWrite k = some y := hy
                rw [hx] at hy; cases hy
                show s.got k ++ x = _
                rw [(hk.whole hb).1 hs]; rfl
            · exact hk.congr rfl rfl (if_neg hj) rfl rfl fun _ _ h => h
        · rename_i hn
          by_cases hj : k = j
          · subst hj
            simp only [Option.map_eq_some_iff] at h
            obtain ⟨q, hq, rfl⟩ := h
            exact hk.congr rfl rfl rfl rfl (effect_step hq hn) fun b hb => absurd hs hb
          · exact plain _ h (by simpa using Ne.symm hj)
    | accept j => exact plain _ h (by simp)
    | deliver j x => exact plain _ h (by simp)
    | hangup j x => exact plain _ h (by simp)
    | iterate j => exact plain _ h (by simp)

theorem readBy_append (k : Nat) (a b : List SlowEvent) : readBy k (a ++ b) = readBy k a + readBy k b := by simp [readBy]

theorem Slow.ok {env : Env} {ce : Nat → ConnEnv} {stores : List (Saver W E)} {w : W} {room : Nat → Nat} {evs : List SlowEvent} {s : Slow W E}
    (h : Slow.exec env ce stores { sys := { world := w }, room := room } evs = some s) (k : Nat) : s.Ok k (room k + readBy k evs) := by
  induction evs using List.reverseRecOn generalizing s with
  | nil =>
    cases h
    exact ⟨by simp [readBy], fun _ => by simp, fun _ h => by simp at h, fun _ => ⟨fun _ => rfl, fun _ _ h => by simp at h⟩⟩
  | append_singleton evs ev ih =>
    rw [Slow.exec_append, Option.bind_eq_some_iff] at h
    obtain ⟨s1, h1, h2⟩ := h
    simp only [Slow.exec, Option.bind_eq_some_iff] at h2
    obtain ⟨s2, h2, h3⟩ := h2
    cases h3
    rw [readBy_append, ← Nat.add_assoc]
    exact Slow.ok_step h2 (ih h1)

theorem connEvents_append (a b : List SlowEvent) : connEvents (a ++ b) = connEvents a ++ connEvents b := List.filterMap_append

/-- The history of the process. -/
theorem Slow.fine {env : Env} {ce : Nat → ConnEnv} {stores : List (Saver W E)} {w : W} {room : Nat → Nat} {evs : List SlowEvent} {s : Slow W E}
    (h : Slow.exec env ce stores { sys := { world := w }, room := room } evs = some s) :
    ∃ evs', Fine.exec env ce stores { world := w } evs' = some s.sys ∧ (∀ k, receivedOn k evs' = receivedOn k (connEvents evs)) ∧
      (∀ k, endingOf k evs' = endingOf k (connEvents evs)) := by
  induction evs using List.reverseRecOn generalizing s with
  | nil => cases h; exact ⟨[], rfl, fun _ => rfl, fun _ => rfl⟩
  | append_singleton evs ev ih =>
    rw [Slow.exec_append, Option.bind_eq_some_iff] at h
    obtain ⟨s1, h1, h2⟩ := h
    simp only [Slow.exec, Option.bind_eq_some_iff] at h2
    obtain ⟨s2, h2, h3⟩ := h2
    cases h3
    obtain ⟨evs', i1, i2, i3⟩ := ih h1
    have plain : ∀ e, ev = .conn e → s1.sys.step env ce stores e = some s.sys → ∃ evs', Fine.exec env ce stores { world := w } evs' = some s.sys ∧
        (∀ k, receivedOn k evs' = receivedOn k (connEvents (evs ++ [ev]))) ∧ (∀ k, endingOf k evs' = endingOf k (connEvents (evs ++ [ev]))) := by
      rintro e rfl he
      refine ⟨evs' ++ [e], ?_, fun k => ?_, fun k => ?_⟩
      · rw [Fine.exec_append, i1]
        simp [Fine.exec, he]
      · rw [connEvents_append, receivedOn_append, receivedOn_append, i2]; rfl
      · rw [connEvents_append]
        show _ = endingOf k (connEvents evs ++ [e])
        rw [endingOf_append, endingOf_append, i3]
    have still : s.sys = s1.sys → (∀ e, ev = .conn e → ∃ k, e = .effect k) → ∃ evs', Fine.exec env ce stores { world := w } evs' = some s.sys ∧
        (∀ k, receivedOn k evs' = receivedOn k (connEvents (evs ++ [ev]))) ∧ (∀ k, endingOf k evs' = endingOf k (connEvents (evs ++ [ev]))) := by
      intro hs he
      refine ⟨evs', by rw [hs]; exact i1, fun k => ?_, fun k => ?_⟩
      · rw [connEvents_append, receivedOn_append, i2]
        cases ev with
        | conn e => obtain ⟨k, rfl⟩ := he e rfl; exact (List.append_nil _).symm
        | _ => exact (List.append_nil _).symm
      · rw [connEvents_append, i3]
        cases ev with
        | conn e =>
          obtain ⟨j, rfl⟩ := he e rfl
          show _ = endingOf k (connEvents evs ++ [.effect j])
          rw [endingOf_append]
        | _ => show _ = endingOf k (connEvents evs ++ []); rw [List.append_nil]
    cases ev with
    | reads j n => cases h2; exact still rfl (by simp)
    | reset j => cases h2; exact still rfl (by simp)
    | conn e =>
      have pl : (s1.sys.step env ce stores e).map (fun t => ({ s1 with sys := t } : Slow W E)) = some s → s1.sys.step env ce stores e = some s.sys := by
        intro h
        simp only [Option.map_eq_some_iff] at h
        obtain ⟨q, hq, rfl⟩ := h
        exact hq
      cases e with
      | effect j =>
        simp only [Slow.step] at h2
        split at h2
        · split at h2
          · simp only [Option.map_eq_some_iff] at h2
            obtain ⟨q, hq, rfl⟩ := h2
            exact plain _ rfl hq
          · split at h2
            · cases h2
            · cases h2; exact still rfl (by simp)
        · split at h2
          · split at h2
            · cases h2
            · cases h2; exact still rfl (by simp)
          · exact plain _ rfl (pl h2)
      | accept j => exact plain _ rfl (pl h2)
      | deliver j x => exact plain _ rfl (pl h2)
      | hangup j x => exact plain _ rfl (pl h2)
      | iterate j => exact plain _ rfl (pl h2)

/-- A step of the process on behalf of connection `k` can be made if the client of that connection reads. -/
theorem Slow.lift_step {env : Env} {ce : Nat → ConnEnv} {stores : List (Saver W E)} {s : Slow W E} {k : Nat} {ev : Event} {q : Fine W E}
    (hev : ev = .iterate k ∨ ev = .effect k) (h : s.sys.step env ce stores ev = some q) :
    ∃ more s', (∀ ev ∈ more, IsOwn k ev) ∧ Slow.exec env ce stores s more = some s' ∧ s'.sys = q := by
  rcases hev with rfl | rfl
  · exact ⟨[.conn (.iterate k)], { s with sys := q }, by simp [IsOwn], by simp [Slow.exec, Slow.step, h], rfl⟩
  · have hcr : s.sys.crashed = false := by
      cases hc : s.sys.crashed with
      | false => rfl
      | true => simp [Fine.step, hc] at h
    have go : ∀ (s : Slow W E) b, s.sys.step env ce stores (.effect k) = some q → s.sys.crashed = false → s.sending k = some b →
        ∃ more s', (∀ ev ∈ more, IsOwn k ev) ∧ Slow.exec env ce stores s more = some s' ∧ s'.sys = q := by
      intro s b h hcr hb
      by_cases hdone : b = [] ∨ s.broken k = true
      · refine ⟨[.conn (.effect k)], { s with sys := q }.setSending k none, by simp [IsOwn], ?_, rfl⟩
        simp only [Slow.exec, Slow.step, hb, if_pos hdone, h]
        rfl
      · let s1 : Slow W E := { s with room := fun j => if j = k then s.room k + b.length else s.room j }
        have e1 : s.step env ce stores (.reads k b.length) = some s1 := rfl
        have r1 : s1.room k = s.room k + b.length := if_pos rfl
        have hb0 : 0 < b.length := List.length_pos_of_ne_nil fun hb0 => hdone (.inl hb0)
        have e2 : s1.step env ce stores (.conn (.effect k)) = some (s1.hand k b) := by
          simp only [Slow.step]
          rw [show s1.sending k = some b from hb]
          simp only
          rw [if_neg hdone, if_neg]
          rintro (h0 | h0)
          · omega
          · rw [show s1.sys.crashed = s.sys.crashed from rfl, hcr] at h0; cases h0
        have e3 : (s1.hand k b).step env ce stores (.conn (.effect k)) = some ({ s1.hand k b with sys := q }.setSending k none) := by
          simp only [Slow.step]
          rw [show (s1.hand k b).sending k = some (b.drop (s1.room k)) from if_pos rfl]
          simp only
          rw [if_pos (.inl (List.drop_eq_nil_of_le (by omega)))]
          rw [show (s1.hand k b).sys.step env ce stores (.effect k) = some q from h]
          rfl
        refine ⟨[.reads k b.length, .conn (.effect k), .conn (.effect k)], { s1.hand k b with sys := q }.setSending k none, by simp [IsOwn], ?_, rfl⟩
        simp only [Slow.exec, e1, Option.bind_some, e2, e3]
    cases hs : s.sending k with
    | some b => exact go s b h hcr hs
    | none =>
      cases hn : s.sys.nextWrite k with
      | none =>
        refine ⟨[.conn (.effect k)], { s with sys := q }, by simp [IsOwn], ?_, rfl⟩
        simp only [Slow.exec, Slow.step, hs, hn, h]
        rfl
      | some b =>
        obtain ⟨more, s', m1, m2, m3⟩ := go (s.setSending k (some b)) b h hcr (if_pos rfl)
        refine ⟨.conn (.effect k) :: more, s', ?_, ?_, m3⟩
        · intro ev hev
          rcases List.mem_cons.mp hev with rfl | hev
          · simp [IsOwn]
          · exact m1 ev hev
        · simp only [Slow.exec, Slow.step, hs, hn]
          rw [if_neg (by simp [hcr])]
          exact m2

theorem Slow.lift {env : Env} {ce : Nat → ConnEnv} {stores : List (Saver W E)} {s : Slow W E} {k : Nat} {evs : List Event} {q : Fine W E}
    (hev : ∀ ev ∈ evs, ev = .iterate k ∨ ev = .effect k) (h : Fine.exec env ce stores s.sys evs = some q) :
    ∃ more s', (∀ ev ∈ more, IsOwn k ev) ∧ Slow.exec env ce stores s more = some s' ∧ s'.sys = q := by
  induction evs generalizing s with
  | nil => cases h; exact ⟨[], s, by simp, rfl, rfl⟩
  | cons ev evs ih =>
    simp only [Fine.exec, Option.bind_eq_some_iff] at h
    obtain ⟨q1, h1, h2⟩ := h
    obtain ⟨m, s1, a1, a2, rfl⟩ := Slow.lift_step (hev ev (by simp)) h1
    obtain ⟨m', s2, b1, b2, b3⟩ := ih (fun e he => hev e (by simp [he])) h2
    refine ⟨m ++ m', s2, ?_, by rw [Slow.exec_append, a2]; exact b2, b3⟩
    intro e he
    rcases List.mem_append.mp he with he | he
    · exact a1 e he
    · exact b1 e he

end Egts
