import Verif.Model.Run
import Mathlib.Data.List.Induction

/-! # Starting and stopping (C58) -/

namespace Egts

theorem Srv.exec_append (s : Srv) (a b : List SrvEvent) : s.exec (a ++ b) = (s.exec a).bind fun s => s.exec b := by
  induction a generalizing s with
  | nil => rfl
  | cons ev a ih =>
    simp only [List.cons_append, Srv.exec, Option.bind_assoc]
    congr 1
    funext s'
    exact ih s'

theorem Srv.step_accept {s s' : Srv} {r : Option Nat} (h : s.step (.accept r) = some s') :
    s.phase = .accepting ∧ (s.l = some true → r = none) ∧ s' = (acceptBody s r).1 := by
  unfold Srv.step at h
  simp only at h
  split at h
  · cases h
  · rename_i hp
    push Not at hp
    split at h
    · cases h
    · rename_i hl
      push Not at hl
      refine ⟨hp, hl, ?_⟩
      cases r <;> (injection h with h; exact h.symm)

/-- C58 is false: `Run` does not return, whatever happens. -/
theorem C58_false (evs : List SrvEvent) (s : Srv) (h : Srv.exec {} evs = some s) : s.phase ≠ .returned := by
  induction evs using List.reverseRecOn generalizing s with
  | nil => cases h; decide
  | append_singleton evs ev ih =>
    rw [Srv.exec_append, Option.bind_eq_some_iff] at h
    obtain ⟨s1, h1, h2⟩ := h
    simp only [Srv.exec, Option.bind_eq_some_iff] at h2
    obtain ⟨s2, h2, h3⟩ := h2
    cases h3
    have hs := ih s1 h1
    cases ev with
    | run b =>
      unfold Srv.step at h2
      simp only at h2
      split at h2
      · cases h2
      · split at h2 <;> (cases h2; simp)
    | accept r =>
      obtain ⟨_, _, rfl⟩ := Srv.step_accept h2
      cases r <;> exact hs
    | stop =>
      unfold Srv.step at h2
      simp only at h2
      split at h2
      · cases h2
      · cases h2
        unfold Srv.stop
        split <;> exact hs

/-- After `Stop`, instead, `Accept` fails and the loop goes round at once, any number of times, filling the log. -/
theorem C58_false_spins (evs : List SrvEvent) (s : Srv) (h : Srv.exec {} evs = some s) (hp : s.phase = .accepting) (hl : s.l = some true) (n : Nat) :
    Srv.exec {} (evs ++ List.replicate n (.accept none)) = some { s with errors := s.errors + n } := by
  rw [Srv.exec_append, h, Option.bind_some]
  clear h
  induction n generalizing s with
  | zero => rfl
  | succ n ih =>
    rw [List.replicate_succ]
    have : s.step (.accept none) = some { s with errors := s.errors + 1 } := by
      simp [Srv.step, hp, acceptBody]
    rw [Srv.exec, this, Option.bind_some, ih { s with errors := s.errors + 1 } hp hl]
    simp only [Nat.add_assoc, Nat.add_comm 1 n]

/-- What `Stop` does achieve: once it has been called on a running server no further connection is served. -/
theorem C58_no_new_connections_partial (evs more : List SrvEvent) (s s' : Srv) (h : Srv.exec {} evs = some s) (hp : s.phase = .accepting)
    (h' : Srv.exec {} (evs ++ .stop :: more) = some s') : s'.started = s.started ∧ s'.phase = .accepting ∧ s'.l = some true := by
  have hl : ∃ b, s.l = some b := by
    clear h'
    induction evs using List.reverseRecOn generalizing s with
    | nil => cases h; cases hp
    | append_singleton evs ev ih =>
      rw [Srv.exec_append, Option.bind_eq_some_iff] at h
      obtain ⟨s1, h1, h2⟩ := h
      simp only [Srv.exec, Option.bind_eq_some_iff] at h2
      obtain ⟨s2, h2, h3⟩ := h2
      cases h3
      cases ev with
      | run b =>
        unfold Srv.step at h2
        simp only at h2
        split at h2
        · cases h2
        · split at h2
          · cases h2; exact ⟨_, rfl⟩
          · cases h2; cases hp
      | accept r =>
        obtain ⟨hp1, _, rfl⟩ := Srv.step_accept h2
        obtain ⟨b, hb⟩ := ih s1 h1 hp1
        cases r <;> exact ⟨b, hb⟩
      | stop =>
        unfold Srv.step at h2
        simp only at h2
        split at h2
        · cases h2
        · cases h2
          unfold Srv.stop at hp ⊢
          split at hp
          · rename_i hn
            obtain ⟨b, hb⟩ := ih s1 h1 hp
            rw [hn] at hb
            cases hb
          · exact ⟨_, rfl⟩
  obtain ⟨b, hl⟩ := hl
  rw [Srv.exec_append, h, Option.bind_some] at h'
  have hstop : s.step .stop = some { s with l := some true } := by
    simp [Srv.step, hp, Srv.stop, hl]
  rw [Srv.exec, hstop, Option.bind_some] at h'
  have key : ∀ (more : List SrvEvent) (s s' : Srv), s.phase = .accepting → s.l = some true → s.exec more = some s' →
      s'.started = s.started ∧ s'.phase = .accepting ∧ s'.l = some true := by
    intro more
    induction more with
    | nil => intro s s' h1 h2 h3; cases h3; exact ⟨rfl, h1, h2⟩
    | cons ev more ih =>
      intro s s' h1 h2 h3
      simp only [Srv.exec, Option.bind_eq_some_iff] at h3
      obtain ⟨s1, h3, h4⟩ := h3
      have : s1.started = s.started ∧ s1.phase = .accepting ∧ s1.l = some true := by
        cases ev with
        | run b => simp [Srv.step, h1] at h3
        | accept r =>
          obtain ⟨_, hr, rfl⟩ := Srv.step_accept h3
          rw [hr h2]
          exact ⟨rfl, h1, h2⟩
        | stop =>
          simp only [Srv.step, h1, Srv.stop, h2] at h3
          cases h3
          exact ⟨rfl, rfl, rfl⟩
      obtain ⟨e1, e2, e3⟩ := ih s1 s' this.2.1 this.2.2 h4
      exact ⟨e1.trans this.1, e2, e3⟩
  obtain ⟨e1, e2, e3⟩ := key more _ s' (by exact hp) rfl h'
  exact ⟨e1, e2, e3⟩

/-- `Stop` reports an error exactly if the listener is closed already, and `Stop` before `Run` has no effect: the server
can be started afterwards and serves connections. -/
theorem C58_stop_result (s : Srv) : (s.stop.2 = true ↔ s.l = some true) ∧ (s.l = none → s.stop = (s, false)) := by
  unfold Srv.stop
  cases h : s.l with
  | none => simp
  | some b => simp

/-- The connections that `Accept` has returned in a history, in order. -/
def acceptedIn : List SrvEvent → List Nat
  | [] => []
  | .accept (some k) :: evs => k :: acceptedIn evs
  | _ :: evs => acceptedIn evs

/-- In every history a handler has been started for each accepted connection, once, in order, and for nothing else; and each
failure of `Accept` has been logged once and has not ended the loop. -/
theorem C58_every_connection_handled (evs : List SrvEvent) (s : Srv) (h : Srv.exec {} evs = some s) :
    s.started = acceptedIn evs ∧ s.errors = evs.count (.accept none) := by
  have key : ∀ (evs : List SrvEvent) (s0 s : Srv), s0.exec evs = some s →
      s.started = s0.started ++ acceptedIn evs ∧ s.errors = s0.errors + evs.count (.accept none) := by
    intro evs
    induction evs with
    | nil => intro s0 s h; cases h; simp [acceptedIn]
    | cons ev evs ih =>
      intro s0 s h
      simp only [Srv.exec, Option.bind_eq_some_iff] at h
      obtain ⟨s1, h1, h2⟩ := h
      obtain ⟨e1, e2⟩ := ih s1 s h2
      cases ev with
      | run b =>
        unfold Srv.step at h1
        simp only at h1
        split at h1
        · cases h1
        · split at h1 <;> (cases h1; simpa [acceptedIn] using ⟨e1, e2⟩)
      | accept r =>
        obtain ⟨_, _, rfl⟩ := Srv.step_accept h1
        cases r with
        | none => simp only [acceptBody] at e1 e2; simp [acceptedIn, e1, e2]; omega
        | some k => simp only [acceptBody] at e1 e2; simp [acceptedIn, e1, e2]
      | stop =>
        unfold Srv.step at h1
        simp only at h1
        split at h1
        · cases h1
        · cases h1
          have : s0.stop.1.started = s0.started ∧ s0.stop.1.errors = s0.errors := by
            unfold Srv.stop; split <;> exact ⟨rfl, rfl⟩
          simp only [this] at e1 e2
          simpa [acceptedIn] using ⟨e1, e2⟩
  simpa using key evs {} s h

example : Srv.exec {} [.stop, .run true, .accept (some 7), .accept none, .stop, .accept none, .accept none] =
    some { l := some true, phase := .accepting, started := [7], errors := 3 } := by decide

end Egts
