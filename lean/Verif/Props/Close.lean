import Verif.Model.Close
import Verif.Spec.Storage

/-!
# C116: closing the storages

A storage is named as in the configuration file.
-/

namespace Egts

namespace Closed

theorem wrap_none {W E : Type} {r : W × Option E} (h : (wrap r).2 = none) : r.2 = none := by
  obtain ⟨w, e⟩ := r
  cases e with
  | none => rfl
  | some e => cases h

theorem held_success {W E : Type} (lib : Lib W E) (ptr : Call → W → Bool) (hp : ∀ c w, (lib c w).2 = none → ptr c w = true)
    (name : Bytes) (hn : name ∈ storageNames) (params : Params) (w : W) (h : ((connectors lib).init name params w).2 = none) :
    (heldAfter lib ptr name params w).connection = true ∧ ((heldAfter lib ptr name params w).channel = true ↔ name = go!"rabbitmq") := by
  have sql : ∀ (d u : Bytes), (match lib (.sqlOpen d u) w with
      | (w, some e) => ((w, some (.lib e)) : W × Option (ConnErr E))
      | (w, none) => wrap (lib (.sqlPing d u) w)).2 = none → ptr (.sqlOpen d u) w = true := by
    intro d u h
    refine hp _ _ ?_
    revert h
    cases e : lib (.sqlOpen d u) w with
    | mk w' o => cases o with
      | none => exact fun _ => rfl
      | some e => intro h; cases h
  simp only [storageNames, List.mem_cons, List.not_mem_nil, or_false] at hn
  rcases hn with rfl | rfl | rfl | rfl | rfl | rfl
  · refine (?_ : _ ∧ (_ ↔ True)) |> fun x => ⟨x.1, x.2.trans (by simp)⟩
    change (amqpHeld lib ptr params w).connection = true ∧ ((amqpHeld lib ptr params w).channel = true ↔ True)
    have h : (amqpInit lib params w).2 = none := h
    cases params with
    | none => cases h
    | some c =>
      simp only [amqpInit] at h
      simp only [amqpHeld]
      cases e : lib (.amqpDial (amqpUrl c)) w with
      | mk w' o =>
        rw [e] at h
        cases o with
        | some e => cases h
        | none =>
          have h1 := hp (.amqpDial (amqpUrl c)) w (by rw [e])
          have h2 := hp _ _ (wrap_none h)
          simp only [h1, h2, and_self]
  · have h : (pgInit lib params w).2 = none := h
    cases params with
    | none => cases h
    | some c => exact ⟨sql _ _ h, iff_of_false (by simp [heldAfter, pgHeld]) (by decide)⟩
  · have h : (natsInit lib params w).2 = none := h
    cases params with
    | none => cases h
    | some c => exact ⟨hp _ _ (wrap_none h), iff_of_false (by simp [heldAfter, natsHeld]) (by decide)⟩
  · have h : (tarantoolInit lib params w).2 = none := h
    have e : heldAfter lib ptr (go!"tarantool_queue") params w = tarantoolHeld ptr params w := rfl
    rw [e]
    cases params with
    | none => cases h
    | some c =>
      simp only [tarantoolInit] at h
      simp only [tarantoolHeld]
      cases e1 : atoi (setting c (go!"max_recons")) with
      | none => rw [e1] at h; cases h
      | some a =>
        cases e2 : atoi (setting c (go!"timeout")) with
        | none => rw [e1, e2] at h; cases h
        | some b =>
          cases e3 : atoi (setting c (go!"reconnect")) with
          | none => rw [e1, e2, e3] at h; cases h
          | some d =>
            rw [e1, e2, e3] at h
            exact ⟨hp _ _ (wrap_none h), iff_of_false (by simp) (by decide)⟩
  · have h : (redisInit (E := E) params w).2 = none := h
    have e : heldAfter lib ptr (go!"redis") params w = redisHeld params := rfl
    rw [e]
    cases params with
    | none => cases h
    | some c =>
      simp only [redisInit] at h
      simp only [redisHeld]
      cases e1 : lookup c (go!"server") with
      | none => rw [e1] at h; cases h
      | some a =>
        cases e2 : atoi (redisDb c true) with
        | none => rw [e1, e2] at h; cases h
        | some b => exact ⟨rfl, iff_of_false (by simp) (by decide)⟩
  · have h : (myInit lib params w).2 = none := h
    cases params with
    | none => cases h
    | some c => exact ⟨sql _ _ h, iff_of_false (by simp [heldAfter, myHeld]) (by decide)⟩

end Closed
open Closed

/-- A storage that has been opened is closed: if no closing call fails, `Close` makes one for the connection, before it for RabbitMQ one
for the channel, and no other; it returns nil and does not panic. -/
theorem C116_closed {W E : Type} (lib : Lib W E) (ptr : Call → W → Bool) (hp : ∀ c w, (lib c w).2 = none → ptr c w = true)
    (name : Bytes) (hn : name ∈ storageNames) (params : Params) (w : W) (h : ((connectors lib).init name params w).2 = none)
    (close : Res → Option E) (hc : ∀ r, close r = none) :
    closeOf close name (heldAfter lib ptr name params w) =
      { calls := if name = go!"rabbitmq" then [.channel, .connection] else [.connection], result := none } := by
  obtain ⟨h1, h2⟩ := held_success lib ptr hp name hn params w h
  unfold closeOf
  by_cases hr : name = go!"rabbitmq"
  · rw [if_pos hr, if_pos hr]
    simp only [amqpClose, h1, h2.mpr hr, hc, if_true, List.singleton_append]
  · rw [if_neg hr, if_neg hr]
    split
    · simp only [natsClose, h1, if_true]
    · simp only [plainClose, h1, if_true, hc]

/-- If a closing call fails: the connection is closed nevertheless, but of RabbitMQ it is left open if it is the channel that could not be
closed; the error is the first one, but that of NATS, which has none. -/
theorem C116_failing {W E : Type} (lib : Lib W E) (ptr : Call → W → Bool) (hp : ∀ c w, (lib c w).2 = none → ptr c w = true)
    (name : Bytes) (hn : name ∈ storageNames) (params : Params) (w : W) (h : ((connectors lib).init name params w).2 = none)
    (close : Res → Option E) :
    let o := closeOf close name (heldAfter lib ptr name params w)
    o.panics = false ∧ (.connection ∈ o.calls ↔ ¬ (name = go!"rabbitmq" ∧ close .channel ≠ none)) ∧
      (name = go!"nats" → o.result = none) ∧
      (name ≠ go!"nats" → o.result = if name = go!"rabbitmq" ∧ close .channel ≠ none then close .channel else close .connection) := by
  obtain ⟨h1, h2⟩ := held_success lib ptr hp name hn params w h
  revert h1 h2
  generalize heldAfter lib ptr name params w = held
  intro h1 h2
  unfold closeOf
  by_cases hr : name = go!"rabbitmq"
  · rw [if_pos hr]
    cases hcc : close .channel with
    | none =>
      refine ⟨?_, ?_, ?_, ?_⟩ <;> simp [amqpClose, h1, h2.mpr hr, hcc]
      intro h; rw [hr] at h; exact absurd h (by decide)
    | some e =>
      have h2 := h2.mpr hr
      have hnn : name ≠ go!"nats" := by rw [hr]; decide
      exact ⟨by simp [amqpClose, h2, hcc], by simp [amqpClose, h2, hcc, hr], fun h => absurd h hnn, fun _ => by simp [amqpClose, h2, hcc, hr]⟩
  · rw [if_neg hr]
    by_cases hnat : name = go!"nats"
    · rw [if_pos hnat]
      refine ⟨rfl, ?_, fun _ => rfl, fun h => absurd hnat h⟩
      simp [natsClose, h1, hr]
    · rw [if_neg hnat]
      refine ⟨?_, ?_, fun h => absurd h hnat, fun _ => ?_⟩ <;> simp [plainClose, h1, hr]

/-- When `Close` panics, whatever happened before: the storage is one of four and there is no connection. -/
theorem C116_panics_iff {E : Type} (close : Res → Option E) (name : Bytes) (hn : name ∈ storageNames) (h : Held) :
    (closeOf close name h).panics = true ↔
      h.connection = false ∧ (name = go!"postgresql" ∨ name = go!"mysql" ∨ name = go!"redis" ∨ name = go!"tarantool_queue") := by
  simp only [storageNames, List.mem_cons, List.not_mem_nil, or_false] at hn
  obtain ⟨hc, hch⟩ := h
  have plain : (plainClose close ⟨hc, hch⟩).panics = true ↔ hc = false := by cases hc <;> simp [plainClose]
  have amqp : (amqpClose close ⟨hc, hch⟩).panics = false := by
    cases hc <;> cases hch <;> cases e : close .channel <;> simp [amqpClose, e]
  rcases hn with rfl | rfl | rfl | rfl | rfl | rfl
  · exact iff_of_false (by rw [show closeOf close (go!"rabbitmq") ⟨hc, hch⟩ = amqpClose close ⟨hc, hch⟩ from rfl, amqp]; decide) (by rintro ⟨_, h⟩; revert h; decide)
  · exact plain.trans ⟨fun h => ⟨h, by decide⟩, fun h => h.1⟩
  · exact iff_of_false (by show ¬ (natsClose (E := E) _).panics = true; simp [natsClose]) (by rintro ⟨_, h⟩; revert h; decide)
  · exact plain.trans ⟨fun h => ⟨h, by decide⟩, fun h => h.1⟩
  · exact plain.trans ⟨fun h => ⟨h, by decide⟩, fun h => h.1⟩
  · exact plain.trans ⟨fun h => ⟨h, by decide⟩, fun h => h.1⟩

/-- Full statement of C116 (not provable): whatever `Init` did, `Close` releases what was opened. A RabbitMQ server closes the channel
itself when a message is published to an exchange that does not exist; then closing it fails, and the connection stays open. -/
theorem C116_false {W E : Type} (lib : Lib W E) (ptr : Call → W → Bool) (hp : ∀ c w, (lib c w).2 = none → ptr c w = true) (params : Params)
    (w : W) (h : ((connectors lib).init (go!"rabbitmq") params w).2 = none) (e : E) (close : Res → Option E) (hc : close .channel = some e) :
    closeOf close (go!"rabbitmq") (heldAfter lib ptr (go!"rabbitmq") params w) = { calls := [.channel], result := some e } := by
  obtain ⟨_, h2⟩ := held_success lib ptr hp (go!"rabbitmq") (by decide) params w h
  show amqpClose _ _ = _
  simp only [amqpClose, h2.mpr rfl, if_true, hc]

/-- And a storage that could not be opened because of its settings must not be closed: `Close` panics. -/
theorem C116_false_panic {W E : Type} (lib : Lib W E) (ptr : Call → W → Bool) (close : Res → Option E) (w : W) :
    ∀ name ∈ [go!"postgresql", go!"mysql", go!"redis", go!"tarantool_queue"], ((connectors lib).init name none w).2 ≠ none ∧
      (closeOf close name (heldAfter lib ptr name none w)).panics = true := by
  intro name hn
  simp only [List.mem_cons, List.not_mem_nil, or_false] at hn
  rcases hn with rfl | rfl | rfl | rfl
  all_goals
    refine ⟨fun h => ?_, rfl⟩
    cases h

/-- Settings without the name of the queue: `Init` fails, but there is a connection to be closed, and `Close` closes it. -/
example {W E : Type} (lib : Lib W E) (ptr : Call → W → Bool) (w : W) (close : Res → Option E) :
    let c : Params := some [(go!"server", go!"localhost:6379"), (go!"db", go!"0")]
    ((connectors lib).init (go!"redis") c w).2 = some .noQueue ∧ (closeOf close (go!"redis") (heldAfter lib ptr (go!"redis") c w)).calls = [.connection] :=
  ⟨by with_unfolding_all rfl, by with_unfolding_all rfl⟩

/-- Settings with which a library that refuses nothing can be initialised. -/
example : ((connectors (W := Unit) (E := Unit) (fun _ w => (w, none))).init (go!"rabbitmq") (some []) ()).2 = none := by with_unfolding_all rfl

end Egts
