import Verif.Proofs.History
import Verif.Spec.System

/-! # Lemmas on interleaved connections -/

namespace Egts

variable {W E : Type}

theorem processAll_append (env : Env) (ce : ConnEnv) (i : Nat) (c c' : UInt32) (a b : List Bytes) (h : (processAll env ce i c a).client = some c') :
    processAll env ce i c (a ++ b) =
      { effs := (processAll env ce i c a).effs ++ (processAll env ce (i + a.length) c' b).effs
        client := (processAll env ce (i + a.length) c' b).client } := by
  induction a generalizing i c with
  | nil =>
    simp only [processAll, Option.some.injEq] at h
    subst h
    simp [processAll]
  | cons f a ih =>
    simp only [List.cons_append, processAll] at h ⊢
    cases hc : (handlePacket env (ce.clock i) c ⟨f, ce.spare i⟩).client with
    | none => rw [hc] at h; simp only at h; rw [hc] at h; cases h
    | some c1 =>
      rw [hc] at h
      simp only at h ⊢
      rw [ih (i + 1) c1 h]
      simp only [List.append_assoc, List.length_cons]
      rw [show i + 1 + a.length = i + (a.length + 1) by omega]

/-- A read that ends the connection although the stream goes on. -/
theorem readPacket_blocked_stop {t : Bytes} {effs : List Effect} (h : readPacket t .blocked = .stop effs) (h0 : effs ≠ []) (more : Bytes) (e : End) :
    readPacket (t ++ more) e = .stop effs := by
  unfold readPacket headerLen at h ⊢
  by_cases h10 : t.length < 10
  · rw [if_pos h10] at h
    injection h with h
    exact absurd h.symm h0
  · rw [if_neg h10] at h
    rw [if_neg (by rw [List.length_append]; omega), List.take_append_of_le_length (by omega)]
    by_cases hb1 : (t.take 10).headD 0 ≠ 1
    · simp only [if_pos hb1] at h ⊢
      exact h
    · simp only [if_neg hb1] at h
      split at h
      · injection h with h
        exact absurd h.symm h0
      · cases h

/-- The invariant of a connection: `p` has been carried out, `inp` has been received, and then `en`. -/
structure ConnInv (env : Env) (ce : ConnEnv) (c : ConnState) (p : List Effect) (inp : Bytes) (en : End) : Prop where
  ending : c.ending = en
  live : c.done = false → ∃ frames : List Bytes, (∀ f ∈ frames, WellFramed f) ∧ c.count = frames.length ∧ inp = frames.flatten ++ c.buf ∧
    processAll env ce 0 0 frames = { effs := p ++ c.pending, client := some c.client }
  over : c.done = true → p ++ c.pending = handleConn env ce inp en ∧
    (en = .blocked → ∀ more e', p ++ c.pending = handleConn env ce (inp ++ more) e')

theorem ConnInv.fresh (env : Env) (ce : ConnEnv) : ConnInv env ce {} [] [] .blocked :=
  ⟨rfl, fun _ => ⟨[], by simp, rfl, rfl, rfl⟩, fun h => by cases h⟩

theorem ConnInv.deliver {env : Env} {ce : ConnEnv} {c : ConnState} {p : List Effect} {inp : Bytes} {en : End} (h : ConnInv env ce c p inp en)
    (he : c.ending = .blocked) (b : Bytes) : ConnInv env ce { c with buf := c.buf ++ b } p (inp ++ b) en := by
  have hen : en = .blocked := by rw [← h.ending, he]
  refine ⟨h.ending, fun hd => ?_, fun hd => ?_⟩
  · obtain ⟨frames, h1, h2, h3, h4⟩ := h.live hd
    exact ⟨frames, h1, h2, by rw [h3, List.append_assoc], h4⟩
  · obtain ⟨_, h2⟩ := h.over hd
    refine ⟨h2 hen b en, fun _ more e' => ?_⟩
    rw [List.append_assoc]
    exact h2 hen (b ++ more) e'

theorem ConnInv.hangup {env : Env} {ce : ConnEnv} {c : ConnState} {p : List Effect} {inp : Bytes} {en : End} (h : ConnInv env ce c p inp en)
    (he : c.ending = .blocked) (e : End) : ConnInv env ce { c with ending := e } p inp e := by
  have hen : en = .blocked := by rw [← h.ending, he]
  refine ⟨rfl, h.live, fun hd => ?_⟩
  obtain ⟨_, h2⟩ := h.over hd
  have := h2 hen [] e
  rw [List.append_nil] at this
  exact ⟨this, fun _ => h2 hen⟩

theorem ConnInv.perform {env : Env} {ce : ConnEnv} {c : ConnState} {p : List Effect} {inp : Bytes} {en : End} (h : ConnInv env ce c p inp en)
    {x : Effect} {rest : List Effect} (hp : c.pending = x :: rest) : ConnInv env ce { c with pending := rest } (p ++ [x]) inp en := by
  have e : p ++ [x] ++ rest = p ++ c.pending := by rw [hp]; simp
  refine ⟨h.ending, fun hd => ?_, fun hd => ?_⟩
  · obtain ⟨frames, h1, h2, h3, h4⟩ := h.live hd
    exact ⟨frames, h1, h2, h3, by rw [h4, ← e]⟩
  · show p ++ [x] ++ rest = _ ∧ (_ → ∀ more e', p ++ [x] ++ rest = _)
    rw [e]; exact h.over hd

theorem ConnInv.iterate {env : Env} {ce : ConnEnv} {c c' : ConnState} {p : List Effect} {inp : Bytes} {en : End} (h : ConnInv env ce c p inp en)
    (hi : c.iterate env ce = some c') : ConnInv env ce c' p inp en := by
  unfold ConnState.iterate at hi
  split at hi
  · cases hi
  · rename_i hn
    push Not at hn
    obtain ⟨hp, hd⟩ := hn
    have hd' : c.done = false := by cases hh : c.done <;> simp_all
    obtain ⟨frames, h1, h2, h3, h4⟩ := h.live hd'
    rw [hp, List.append_nil] at h4
    have hf : ∀ (t : Bytes) (e : End), handleConn env ce (frames.flatten ++ t) e = p ++ handleFrom env ce e frames.length c.client t := by
      intro t e
      rw [handleConn_eq, handleFrom_frames env ce e 0 0 frames t h1, h4, Nat.zero_add]
    split at hi
    · cases hi
    · rename_i effs hne hr
      cases hi
      have h0 : effs ≠ [] := fun hh => hne hh
      refine ⟨h.ending, fun hh => (by cases hh), fun _ => ⟨?_, fun hb more e' => ?_⟩⟩
      · show p ++ effs = _
        rw [h3, hf, handleFrom_eq, ← h.ending, hr]
      · show p ++ effs = _
        rw [h.ending, hb] at hr
        rw [h3, List.append_assoc, hf, handleFrom_eq, readPacket_blocked_stop hr h0]
    · rename_i b rest hr
      obtain ⟨hw, hb⟩ := readPacket_packet hr
      simp only [h2] at hi
      split at hi
      · rename_i hc
        cases hi
        have all : ∀ (t : Bytes) (e : End), handleConn env ce (frames.flatten ++ (b ++ t)) e =
            p ++ (handlePacket env (ce.clock frames.length) c.client ⟨b, ce.spare frames.length⟩).effs := by
          intro t e
          rw [hf, handleFrom_eq, readPacket_framed e hw]
          simp only [hc]
        refine ⟨h.ending, fun hh => (by cases hh), fun _ => ⟨?_, fun _ more e' => ?_⟩⟩
        · rw [h3, hb, all]
        · rw [h3, hb, List.append_assoc, List.append_assoc, all]
      · rename_i c1 hc
        cases hi
        refine ⟨h.ending, fun _ => ⟨frames ++ [b], ?_, ?_, ?_, ?_⟩, fun hh => (by simp [hd'] at hh)⟩
        · intro f hf
          rcases List.mem_append.mp hf with hf | hf
          · exact h1 f hf
          · rw [List.mem_singleton.mp hf]; exact hw
        · simp
        · rw [h3, hb]; simp
        · rw [processAll_append env ce 0 0 c.client frames [b] (by rw [h4]), h4, Nat.zero_add]
          simp only [processAll, hc, List.append_nil]

/-- What has been done is the beginning of what a lone connection does. -/
theorem ConnInv.prefix {env : Env} {ce : ConnEnv} {c : ConnState} {p : List Effect} {inp : Bytes} {en : End} (h : ConnInv env ce c p inp en) :
    p <+: handleConn env ce inp en := by
  cases hd : c.done with
  | true =>
    rw [← (h.over hd).1]
    exact List.prefix_append _ _
  | false =>
    obtain ⟨frames, h1, h2, h3, h4⟩ := h.live hd
    rw [h3, handleConn_eq, handleFrom_frames env ce en 0 0 frames c.buf h1, h4]
    simp only [List.append_assoc]
    exact List.prefix_append _ _

/-- If there is nothing left to do, it is all of it. -/
theorem ConnInv.complete {env : Env} {ce : ConnEnv} {c : ConnState} {p : List Effect} {inp : Bytes} {en : End} (h : ConnInv env ce c p inp en)
    (hp : c.pending = []) (hi : c.iterate env ce = none) : p = handleConn env ce inp en := by
  cases hd : c.done with
  | true =>
    rw [← (h.over hd).1, hp, List.append_nil]
  | false =>
    obtain ⟨frames, h1, h2, h3, h4⟩ := h.live hd
    rw [hp, List.append_nil] at h4
    unfold ConnState.iterate at hi
    rw [if_neg (by simp [hp, hd])] at hi
    rw [h3, handleConn_eq, handleFrom_frames env ce en 0 0 frames c.buf h1, h4]
    simp only
    rw [handleFrom_eq, ← h.ending]
    split at hi
    · rename_i hr
      rw [hr]; simp
    · cases hi
    · simp only at hi
      split at hi <;> cases hi

theorem receivedOn_append (k : Nat) (a b : List Event) : receivedOn k (a ++ b) = receivedOn k a ++ receivedOn k b := List.flatMap_append

theorem endingOf_append (k : Nat) (a : List Event) (ev : Event) :
    endingOf k (a ++ [ev]) = match ev with | .hangup j e => if j = k then e else endingOf k a | _ => endingOf k a := by
  unfold endingOf
  rw [List.filterMap_append]
  cases ev with
  | hangup j e =>
    simp only
    split
    · rename_i h; simp [h]
    · rename_i h; simp [h]
  | _ => simp

theorem System.exec_append (env : Env) (ce : Nat → ConnEnv) (stores : List (Saver W E)) (s : System W E) (a b : List Event) :
    s.exec env ce stores (a ++ b) = (s.exec env ce stores a).bind fun s' => s'.exec env ce stores b := by
  induction a generalizing s with
  | nil => rfl
  | cons ev a ih =>
    simp only [List.cons_append, System.exec, Option.bind_assoc]
    congr 1
    funext s'
    exact ih s'

theorem doneBy_set (s : System W E) (k j : Nat) (c : ConnState) : doneBy (s.set k c) j = doneBy s j := rfl

theorem doneBy_perform (stores : List (Saver W E)) (s : System W E) (k j : Nat) (x : Effect) :
    doneBy (s.perform stores k x) j = doneBy s j ++ (if k = j then [x] else []) := by
  unfold doneBy
  by_cases h : k = j
  · subst h
    cases x <;> simp [System.perform, List.filter_append, Outcome.effect]
  · cases x <;> simp [System.perform, List.filter_append, h]

theorem perform_conns (stores : List (Saver W E)) (s : System W E) (k j : Nat) (x : Effect) : (s.perform stores k x).conns j = s.conns j := by
  cases x <;> rfl

/-- The invariant of the whole system. -/
def SysInv (env : Env) (ce : Nat → ConnEnv) (s : System W E) (evs : List Event) : Prop :=
  ∀ k, match s.conns k with
    | none => doneBy s k = [] ∧ receivedOn k evs = [] ∧ endingOf k evs = .blocked
    | some c => ConnInv env (ce k) c (doneBy s k) (receivedOn k evs) (endingOf k evs)

theorem SysInv.step {env : Env} {ce : Nat → ConnEnv} {stores : List (Saver W E)} {s s' : System W E} {evs : List Event} {ev : Event}
    (h : SysInv env ce s evs) (hs : s.step env ce stores ev = some s') : SysInv env ce s' (evs ++ [ev]) := by
  unfold System.step at hs
  split at hs
  · cases hs
  · intro j
    have hj := h j
    rw [endingOf_append, receivedOn_append]
    cases ev with
    | accept k =>
      simp only at hs
      split at hs
      · cases hs
      · rename_i hk
        cases hs
        have hr : receivedOn j [Event.accept k] = [] := rfl
        rw [hr, List.append_nil, doneBy_set]
        simp only [System.set]
        by_cases hjk : j = k
        · subst hjk
          rw [if_pos rfl]
          have hk' : s.conns j = none := by
            cases hh : s.conns j with
            | none => rfl
            | some c => rw [hh] at hk; simp at hk
          rw [hk'] at hj
          obtain ⟨e1, e2, e3⟩ := hj
          simp only [e1, e2, e3]
          exact ConnInv.fresh env (ce j)
        · rw [if_neg hjk]; exact hj
    | deliver k b =>
      simp only [Option.bind_eq_some_iff] at hs
      obtain ⟨c, hc, hs⟩ := hs
      split at hs
      · rename_i he
        cases hs
        rw [doneBy_set]
        simp only [System.set]
        by_cases hjk : j = k
        · subst hjk
          rw [if_pos rfl]
          rw [hc] at hj
          have hr : receivedOn j [Event.deliver j b] = b := by simp [receivedOn]
          rw [hr]
          exact ConnInv.deliver hj he b
        · rw [if_neg hjk]
          have hr : receivedOn j [Event.deliver k b] = [] := by simp [receivedOn, Ne.symm hjk]
          rw [hr, List.append_nil]
          exact hj
      · cases hs
    | hangup k e =>
      simp only [Option.bind_eq_some_iff] at hs
      obtain ⟨c, hc, hs⟩ := hs
      have hr : receivedOn j [Event.hangup k e] = [] := rfl
      rw [hr, List.append_nil]
      split at hs
      · rename_i he
        cases hs
        rw [doneBy_set]
        simp only [System.set]
        by_cases hjk : j = k
        · subst hjk
          rw [if_pos rfl, if_pos rfl]
          rw [hc] at hj
          exact ConnInv.hangup hj he e
        · rw [if_neg hjk, if_neg (Ne.symm hjk)]
          exact hj
      · cases hs
    | iterate k =>
      simp only [Option.bind_eq_some_iff, Option.map_eq_some_iff] at hs
      obtain ⟨c, hc, c', hi, rfl⟩ := hs
      have hr : receivedOn j [Event.iterate k] = [] := rfl
      rw [hr, List.append_nil, doneBy_set]
      simp only [System.set]
      by_cases hjk : j = k
      · subst hjk
        rw [if_pos rfl]
        rw [hc] at hj
        exact ConnInv.iterate hj hi
      · rw [if_neg hjk]
        exact hj
    | effect k =>
      simp only [Option.bind_eq_some_iff] at hs
      obtain ⟨c, hc, hs⟩ := hs
      have hr : receivedOn j [Event.effect k] = [] := rfl
      rw [hr, List.append_nil]
      split at hs
      · cases hs
      · rename_i x rest hp
        cases hs
        rw [doneBy_set, doneBy_perform]
        simp only [System.set]
        by_cases hjk : j = k
        · subst hjk
          rw [if_pos rfl, if_pos rfl]
          rw [hc] at hj
          exact ConnInv.perform hj hp
        · rw [if_neg hjk, if_neg (Ne.symm hjk), List.append_nil, perform_conns]
          exact hj

theorem SysInv.exec {env : Env} {ce : Nat → ConnEnv} {stores : List (Saver W E)} {w : W} (evs : List Event) {s : System W E}
    (hs : System.exec env ce stores { world := w } evs = some s) : SysInv env ce s evs := by
  induction evs using List.reverseRecOn generalizing s with
  | nil =>
    cases hs
    intro k
    exact ⟨rfl, rfl, rfl⟩
  | append_singleton evs ev ih =>
    rw [System.exec_append, Option.bind_eq_some_iff] at hs
    obtain ⟨s1, h1, h2⟩ := hs
    simp only [System.exec, Option.bind_eq_some_iff] at h2
    obtain ⟨s2, h2, h3⟩ := h2
    cases h3
    exact (ih h1).step h2

/-- The world is what the repository makes of the saves, in the order of the log. -/
theorem System.exec_world {env : Env} {ce : Nat → ConnEnv} {stores : List (Saver W E)} {w : W} (evs : List Event) {s : System W E}
    (hs : System.exec env ce stores { world := w } evs = some s) :
    runEffs stores w (s.log.map (fun x => x.2.effect)) = (s.world, s.log.map (·.2)) := by
  have runEffs_append : ∀ (w : W) (a b : List Effect), runEffs stores w (a ++ b) =
      ((runEffs stores (runEffs stores w a).1 b).1, (runEffs stores w a).2 ++ (runEffs stores (runEffs stores w a).1 b).2) := by
    intro w a b
    induction a generalizing w with
    | nil => rfl
    | cons x a ih => cases x <;> simp only [List.cons_append, runEffs, ih]
  induction evs using List.reverseRecOn generalizing s with
  | nil => cases hs; rfl
  | append_singleton evs ev ih =>
    rw [System.exec_append, Option.bind_eq_some_iff] at hs
    obtain ⟨s1, h1, h2⟩ := hs
    simp only [System.exec, Option.bind_eq_some_iff] at h2
    obtain ⟨s2, h2, h3⟩ := h2
    cases h3
    have h := ih h1
    unfold System.step at h2
    split at h2
    · cases h2
    · cases ev with
      | accept k =>
        simp only at h2
        split at h2
        · cases h2
        · cases h2; exact h
      | deliver k b =>
        simp only [Option.bind_eq_some_iff] at h2
        obtain ⟨c, hc, h2⟩ := h2
        split at h2
        · cases h2; exact h
        · cases h2
      | hangup k b =>
        simp only [Option.bind_eq_some_iff] at h2
        obtain ⟨c, hc, h2⟩ := h2
        split at h2
        · cases h2; exact h
        · cases h2
      | iterate k =>
        simp only [Option.bind_eq_some_iff, Option.map_eq_some_iff] at h2
        obtain ⟨c, hc, c', hi, rfl⟩ := h2
        exact h
      | effect k =>
        simp only [Option.bind_eq_some_iff] at h2
        obtain ⟨c, hc, h2⟩ := h2
        split at h2
        · cases h2
        · rename_i x rest hp
          cases h2
          cases x <;>
            simp only [System.set, System.perform, List.map_append, List.map_cons, List.map_nil, runEffs_append, h] <;> rfl

theorem set_conns (s : System W E) (k : Nat) (c : ConnState) : (s.set k c).conns k = some c := if_pos rfl

/-- A connection can carry out its pending effects, whatever the others do. -/
theorem drain (env : Env) (ce : Nat → ConnEnv) (stores : List (Saver W E)) (k : Nat) (s : System W E) (c : ConnState) (h : s.conns k = some c)
    (hc : s.crashed = false) :
    ∃ (n : Nat) (s' : System W E), s.exec env ce stores (List.replicate n (.effect k)) = some s' ∧
      (s'.crashed = true ∨ s'.crashed = false ∧ s'.conns k = some { c with pending := [] }) := by
  induction hp : c.pending generalizing s c with
  | nil =>
    refine ⟨0, s, rfl, .inr ⟨hc, ?_⟩⟩
    rw [h, ← hp]
  | cons x rest ih =>
    cases hs : ((s.perform stores k x).set k { c with pending := rest }).crashed with
    | true =>
      refine ⟨1, (s.perform stores k x).set k { c with pending := rest }, ?_, .inl hs⟩
      simp [List.replicate, System.exec, System.step, hc, h, hp]
    | false =>
      obtain ⟨n, s', h1, h2⟩ := ih ((s.perform stores k x).set k { c with pending := rest }) { c with pending := rest } (set_conns _ _ _) hs rfl
      refine ⟨n + 1, s', ?_, h2⟩
      rw [List.replicate_succ]
      simp only [System.exec, System.step, hc, h, hp, Option.bind_some]
      exact h1

/-- A connection can be brought to rest, whatever the others do. -/
theorem settle (env : Env) (ce : Nat → ConnEnv) (stores : List (Saver W E)) (k : Nat) (m : Nat) (s : System W E) (c : ConnState) (h : s.conns k = some c)
    (hc : s.crashed = false) (hm : c.buf.length + (if c.done = true then 0 else 1) ≤ m) :
    ∃ (evs : List Event) (s' : System W E), (∀ ev ∈ evs, ev = .iterate k ∨ ev = .effect k) ∧ s.exec env ce stores evs = some s' ∧
      (s'.crashed = true ∨ ∃ c', s'.conns k = some c' ∧ c'.pending = [] ∧ c'.iterate env (ce k) = none) := by
  induction m generalizing s c with
  | zero =>
    obtain ⟨n, s', h1, h2⟩ := drain env ce stores k s c h hc
    refine ⟨List.replicate n (.effect k), s', fun ev hev => .inr (List.eq_of_mem_replicate hev), h1, ?_⟩
    rcases h2 with h2 | ⟨_, h2⟩
    · exact .inl h2
    · refine .inr ⟨_, h2, rfl, ?_⟩
      have : c.done = true := by
        by_contra hh
        rw [if_neg hh] at hm
        omega
      simp [ConnState.iterate, this]
  | succ m ih =>
    obtain ⟨n, s', h1, h2⟩ := drain env ce stores k s c h hc
    rcases h2 with h2 | ⟨hc2, h2⟩
    · exact ⟨List.replicate n (.effect k), s', fun ev hev => .inr (List.eq_of_mem_replicate hev), h1, .inl h2⟩
    · cases hi : ConnState.iterate env (ce k) { c with pending := [] } with
      | none =>
        exact ⟨List.replicate n (.effect k), s', fun ev hev => .inr (List.eq_of_mem_replicate hev), h1, .inr ⟨_, h2, rfl, hi⟩⟩
      | some c1 =>
        have hm1 : c1.buf.length + (if c1.done = true then 0 else 1) ≤ m := by
          have hd : c.done = false := by
            cases hh : c.done with
            | false => rfl
            | true => simp [ConnState.iterate, hh] at hi
          rw [if_neg (by simp [hd])] at hm
          unfold ConnState.iterate at hi
          rw [if_neg (by simp [hd])] at hi
          split at hi
          · cases hi
          · cases hi
            simp only [if_true]
            omega
          · rename_i b rest hr
            obtain ⟨hw, hb⟩ := readPacket_packet hr
            have hl : c.buf.length = b.length + rest.length := by
              have : c.buf = b ++ rest := hb
              rw [this, List.length_append]
            have hb1 : 1 ≤ b.length := by
              have := hw.2.1
              omega
            simp only at hi
            split at hi
            · cases hi
              simp only [if_true]
              omega
            · cases hi
              simp only [hd, Bool.false_eq_true, if_false]
              omega
        obtain ⟨evs, s2, e1, e2, e3⟩ := ih (s'.set k c1) c1 (set_conns _ _ _) hc2 hm1
        refine ⟨List.replicate n (.effect k) ++ (.iterate k :: evs), s2, ?_, ?_, e3⟩
        · intro ev hev
          rcases List.mem_append.mp hev with hev | hev
          · exact .inr (List.eq_of_mem_replicate hev)
          · rcases List.mem_cons.mp hev with rfl | hev
            · exact .inl rfl
            · exact e1 ev hev
        · rw [System.exec_append, h1, Option.bind_some]
          simp only [System.exec, System.step, hc2, h2, Option.bind_some, hi, Option.map_some]
          exact e2

end Egts
