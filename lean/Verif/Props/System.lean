import Verif.Proofs.System
import Verif.Props.Storage
import Verif.Props.Crash

/-! # Many connections (C55) -/

namespace Egts

variable {W E : Type}

/-- Whatever happens on the other connections and in whatever order, what has been done on behalf of connection `k` is a
beginning of what a receiver serving that connection alone would do given the same bytes. -/
theorem C55_isolated (env : Env) (ce : Nat → ConnEnv) (stores : List (Saver W E)) (w : W) (evs : List Event) (s : System W E)
    (hs : System.exec env ce stores { world := w } evs = some s) (k : Nat) :
    doneBy s k <+: handleConn env (ce k) (receivedOn k evs) (endingOf k evs) := by
  have h := SysInv.exec evs hs k
  cases hk : s.conns k with
  | none => rw [hk] at h; rw [h.1]; exact List.nil_prefix
  | some c => rw [hk] at h; exact h.prefix

/-- … and all of it, once the goroutine of connection `k` has nothing left to do. -/
theorem C55_complete (env : Env) (ce : Nat → ConnEnv) (stores : List (Saver W E)) (w : W) (evs : List Event) (s : System W E)
    (hs : System.exec env ce stores { world := w } evs = some s) (k : Nat) (c : ConnState) (hk : s.conns k = some c)
    (h1 : s.step env ce stores (.iterate k) = none) (h2 : s.step env ce stores (.effect k) = none) (hc : s.crashed = false) :
    doneBy s k = handleConn env (ce k) (receivedOn k evs) (endingOf k evs) := by
  have h := SysInv.exec evs hs k
  rw [hk] at h
  have e1 : c.iterate env (ce k) = none := by
    simpa [System.step, hc, hk] using h1
  have e2 : c.pending = [] := by
    cases hp : c.pending with
    | nil => rfl
    | cons x rest => simp [System.step, hc, hk, hp] at h2
  exact h.complete e2 e1

/-- No connection can hold up another: from every state in which the process lives, the goroutine of connection `k` can, by
its own steps alone, come to the point where it has done everything (or crashes the process). -/
theorem C55_never_held_up (env : Env) (ce : Nat → ConnEnv) (stores : List (Saver W E)) (w : W) (evs : List Event) (s : System W E)
    (hs : System.exec env ce stores { world := w } evs = some s) (hc : s.crashed = false) (k : Nat) (hk : (s.conns k).isSome) :
    ∃ (more : List Event) (s' : System W E), (∀ ev ∈ more, ev = .iterate k ∨ ev = .effect k) ∧
      System.exec env ce stores { world := w } (evs ++ more) = some s' ∧
      (s'.crashed = true ∨ doneBy s' k = handleConn env (ce k) (receivedOn k evs) (endingOf k evs)) := by
  obtain ⟨c, hk⟩ := Option.isSome_iff_exists.mp hk
  obtain ⟨more, s', h1, h2, h3⟩ := settle env ce stores k _ s c hk hc (Nat.le_refl _)
  have hx : System.exec env ce stores { world := w } (evs ++ more) = some s' := by
    rw [System.exec_append, hs, Option.bind_some, h2]
  refine ⟨more, s', h1, hx, h3.imp_right ?_⟩
  rintro ⟨c', e1, e2, e3⟩
  have h := SysInv.exec _ hx k
  rw [e1] at h
  have := h.complete e2 e3
  have hr : ∀ more : List Event, (∀ ev ∈ more, ev = .iterate k ∨ ev = .effect k) →
      receivedOn k (evs ++ more) = receivedOn k evs ∧ endingOf k (evs ++ more) = endingOf k evs := by
    intro more hm
    induction more using List.reverseRecOn with
    | nil => simp
    | append_singleton more ev ih =>
      obtain ⟨i1, i2⟩ := ih (fun ev' h' => hm ev' (by simp [h']))
      rw [← List.append_assoc, receivedOn_append, endingOf_append, i1, i2]
      rcases hm ev (by simp) with rfl | rfl
      · exact ⟨by simp [receivedOn], rfl⟩
      · exact ⟨by simp [receivedOn], rfl⟩
  rw [(hr more h1).1, (hr more h1).2] at this
  exact this

/-- The storages see the records of all connections one after the other, in the order in which they were saved: the state
they are in, and the answers they gave, are those of a sequence of saves by one caller. -/
theorem C55_storages_serial (env : Env) (ce : Nat → ConnEnv) (stores : List (Saver W E)) (w : W) (evs : List Event) (s : System W E)
    (hs : System.exec env ce stores { world := w } evs = some s) :
    runEffs stores w (s.log.map fun x => x.2.effect) = (s.world, s.log.map (·.2)) :=
  System.exec_world evs hs

/-- If no connection has received bytes that make its own handler panic then the process lives: a connection can be brought
down by another only through the crash described in C56. -/
theorem C55_crash_has_a_cause (env : Env) (ce : Nat → ConnEnv) (stores : List (Saver W E)) (w : W) (evs : List Event) (s : System W E)
    (hs : System.exec env ce stores { world := w } evs = some s) (hc : s.crashed = true) :
    ∃ k, Effect.crash ∈ handleConn env (ce k) (receivedOn k evs) (endingOf k evs) := by
  have key : ∃ k, Effect.crash ∈ doneBy s k := by
    induction evs using List.reverseRecOn generalizing s with
    | nil => cases hs; cases hc
    | append_singleton evs ev ih =>
      rw [System.exec_append, Option.bind_eq_some_iff] at hs
      obtain ⟨s1, h1, h2⟩ := hs
      simp only [System.exec, Option.bind_eq_some_iff] at h2
      obtain ⟨s2, h2, h3⟩ := h2
      cases h3
      unfold System.step at h2
      split at h2
      · cases h2
      · rename_i hn
        cases ev with
        | accept k =>
          simp only at h2
          split at h2
          · cases h2
          · cases h2; exact absurd hc hn
        | deliver k b =>
          simp only [Option.bind_eq_some_iff] at h2
          obtain ⟨c, _, h2⟩ := h2
          split at h2
          · cases h2; exact absurd hc hn
          · cases h2
        | hangup k b =>
          simp only [Option.bind_eq_some_iff] at h2
          obtain ⟨c, _, h2⟩ := h2
          split at h2
          · cases h2; exact absurd hc hn
          · cases h2
        | iterate k =>
          simp only [Option.bind_eq_some_iff, Option.map_eq_some_iff] at h2
          obtain ⟨c, _, c', _, rfl⟩ := h2
          exact absurd hc hn
        | effect k =>
          simp only [Option.bind_eq_some_iff] at h2
          obtain ⟨c, _, h2⟩ := h2
          split at h2
          · cases h2
          · rename_i x rest hp
            cases h2
            have hx : x = .crash := by
              cases x <;> first | rfl | exact absurd hc hn
            refine ⟨k, ?_⟩
            rw [doneBy_set, doneBy_perform, if_pos rfl, hx]
            simp
  obtain ⟨k, hk⟩ := key
  exact ⟨k, (C55_isolated env ce stores w evs s hs k).subset hk⟩

/-- A panic in the handler of one connection ends the process: once it has happened nothing more is done for any connection,
and no connection is accepted. -/
theorem C56_process_dies (env : Env) (ce : Nat → ConnEnv) (stores : List (Saver W E)) (w : W) (evs : List Event) (s : System W E)
    (hs : System.exec env ce stores { world := w } evs = some s) (k : Nat) (hk : Effect.crash ∈ doneBy s k) :
    s.crashed = true ∧ ∀ ev, s.step env ce stores ev = none := by
  have key : s.crashed = true := by
    induction evs using List.reverseRecOn generalizing s with
    | nil => cases hs; simp [doneBy] at hk
    | append_singleton evs ev ih =>
      rw [System.exec_append, Option.bind_eq_some_iff] at hs
      obtain ⟨s1, h1, h2⟩ := hs
      simp only [System.exec, Option.bind_eq_some_iff] at h2
      obtain ⟨s2, h2, h3⟩ := h2
      cases h3
      unfold System.step at h2
      split at h2
      · cases h2
      · rename_i hn
        cases ev with
        | accept j =>
          simp only at h2
          split at h2
          · cases h2
          · cases h2; rw [doneBy_set] at hk; exact absurd (ih s1 h1 hk) hn
        | deliver j b =>
          simp only [Option.bind_eq_some_iff] at h2
          obtain ⟨c, _, h2⟩ := h2
          split at h2
          · cases h2; rw [doneBy_set] at hk; exact absurd (ih s1 h1 hk) hn
          · cases h2
        | hangup j b =>
          simp only [Option.bind_eq_some_iff] at h2
          obtain ⟨c, _, h2⟩ := h2
          split at h2
          · cases h2; rw [doneBy_set] at hk; exact absurd (ih s1 h1 hk) hn
          · cases h2
        | iterate j =>
          simp only [Option.bind_eq_some_iff, Option.map_eq_some_iff] at h2
          obtain ⟨c, _, c', _, rfl⟩ := h2
          rw [doneBy_set] at hk; exact absurd (ih s1 h1 hk) hn
        | effect j =>
          simp only [Option.bind_eq_some_iff] at h2
          obtain ⟨c, _, h2⟩ := h2
          split at h2
          · cases h2
          · rename_i x rest hp
            cases h2
            rw [doneBy_set, doneBy_perform] at hk
            have hx : x = .crash := by
              split at hk
              · rcases List.mem_append.mp hk with hk | hk
                · exact absurd (ih s1 h1 (by simpa using hk)) hn
                · simpa using (List.mem_singleton.mp hk).symm
              · exact absurd (ih s1 h1 (by simpa using hk)) hn
            subst hx
            rfl
  exact ⟨key, fun ev => by unfold System.step; rw [if_pos key]⟩

/-- A history with two connections whose packets arrive in pieces, interleaved. -/
def twoConns : List Event :=
  [.accept 0, .accept 1, .deliver 0 (Ex.twoPos.take 30), .deliver 1 [7, 7, 7, 7, 7, 7, 7, 7, 7, 7], .deliver 0 (Ex.twoPos.drop 30), .iterate 0, .iterate 1,
   .effect 0, .effect 1, .effect 0]

set_option maxRecDepth 40000 in
example (env : Env) : ∃ s : System (List NavRecord) Unit,
    System.exec env (fun _ => { clock := fun _ => 9, spare := fun _ => [] }) [fun r w => (w ++ [r], none)] { world := [] } twoConns = some s ∧
    s.crashed = false ∧ s.world.length = 1 ∧ (doneBy s 0).length = 2 ∧ doneBy s 1 = [.close] ∧ s.log.map (·.1) = [0, 1, 0] := by
  refine ⟨_, by with_unfolding_all rfl, ?_⟩
  refine ⟨rfl, ?_⟩
  with_unfolding_all exact ⟨rfl, rfl, rfl, rfl⟩

/-- A history in which twelve bytes on connection 0 end the process while connection 1 is open. -/
example (env : Env) : ∃ s : System (List NavRecord) Unit,
    System.exec env (fun _ => { clock := fun _ => 9, spare := fun _ => [] }) [fun r w => (w ++ [r], none)] { world := [] }
      [.accept 0, .accept 1, .deliver 0 [1, 0, 0, 0, 0, 10, 0, 5, 0, 0, 0, 0], .iterate 0, .effect 0] = some s ∧
    Effect.crash ∈ doneBy s 0 := by
  refine ⟨_, by with_unfolding_all rfl, ?_⟩
  with_unfolding_all exact List.mem_cons_self

end Egts
