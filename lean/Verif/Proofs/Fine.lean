import Verif.Spec.Fine
import Verif.Proofs.System

/-! # Lemmas about saves that take time

A history is one of `Model/System.lean` if the storages are left out: a save then happens when it ends. -/

namespace Egts

variable {W E : Type}

def Outcome.blank : Outcome E → Outcome Unit
  | .saved r _ => .saved r none
  | .other x => .other x

/-- The connection, the record being saved counted as pending. -/
def Fine.conn (s : Fine W E) (k : Nat) : Option ConnState :=
  (s.conns k).map fun c => match s.saving k with
    | some (r, _) => { c with pending := .save r :: c.pending }
    | none => c

def Fine.abs (s : Fine W E) : System Unit Unit :=
  { conns := s.conn, world := (), log := s.log.map fun x => (x.1, x.2.blank), crashed := s.crashed }

theorem doneBy_abs (s : Fine W E) (k : Nat) : doneBy s.abs k = s.doneBy k := by
  unfold doneBy Fine.doneBy Fine.abs
  simp only [List.filter_map, List.map_map]
  apply List.map_congr_left
  rintro ⟨j, o⟩ _
  cases o <;> rfl

theorem Fine.abs_eq {s s' : Fine W E} (k : Nat) (x : ConnState) (h : ∀ j, j ≠ k → s'.conns j = s.conns j ∧ s'.saving j = s.saving j)
    (hk : s'.conn k = some x) : s'.abs = { s.abs.set k x with log := s'.abs.log, crashed := s'.crashed } := by
  unfold Fine.abs System.set
  congr 1
  funext j
  by_cases hj : j = k
  · subst hj; simp [hk]
  · simp [hj, Fine.conn, h j hj]

theorem Fine.conn_none {s : Fine W E} {k : Nat} {c : ConnState} (hk : s.conns k = some c) (hs : s.saving k = none) : s.conn k = some c := by
  simp [Fine.conn, hk, hs]

theorem Fine.conn_some {s : Fine W E} {k : Nat} {c : ConnState} {x : NavRecord × Nat} (hk : s.conns k = some c) (hs : s.saving k = some x) :
    s.conn k = some { c with pending := .save x.1 :: c.pending } := by
  simp [Fine.conn, hk, hs]

theorem Fine.offer_conns (stores : List (Saver W E)) (s : Fine W E) (k : Nat) (r : NavRecord) (i : Nat) :
    (s.offer stores k r i).conns = s.conns ∧ (s.offer stores k r i).crashed = s.crashed ∧
    (∀ j, j ≠ k → (s.offer stores k r i).saving j = s.saving j) ∧
    ((s.offer stores k r i).saving k = some (r, i + 1) ∧ (s.offer stores k r i).log = s.log ∨
     (s.offer stores k r i).saving k = none ∧ ∃ e, (s.offer stores k r i).log = s.log ++ [(k, .saved r e)]) := by
  unfold Fine.offer
  split
  · exact ⟨rfl, rfl, fun j hj => if_neg hj, .inr ⟨if_pos rfl, _, rfl⟩⟩
  · rename_i st _
    rcases st r s.world with ⟨w, _ | e⟩
    · exact ⟨rfl, rfl, fun j hj => if_neg hj, .inl ⟨if_pos rfl, rfl⟩⟩
    · exact ⟨rfl, rfl, fun j hj => if_neg hj, .inr ⟨if_pos rfl, _, rfl⟩⟩

theorem Fine.sim {env : Env} {ce : Nat → ConnEnv} {stores : List (Saver W E)} {s s' : Fine W E} {ev : Event}
    (hinv : ∀ k, s.conns k = none → s.saving k = none)
    (h : s.step env ce stores ev = some s') : (s.abs.step env ce [] ev = some s'.abs ∨ (∃ k, ev = .effect k) ∧ s'.abs = s.abs) ∧
      ∀ k, s'.conns k = none → s'.saving k = none := by
  unfold Fine.step at h
  split at h
  · cases h
  · rename_i hc
    have hc' : s.abs.crashed = false := by simpa [Fine.abs] using hc
    have hcr : s.crashed = false := by simpa using hc
    have hset : ∀ k c, (∀ j, j ≠ k → (s.set k c).conns j = s.conns j ∧ (s.set k c).saving j = s.saving j) ∧
        ∀ j, (s.set k c).conns j = none → (s.set k c).saving j = none := by
      intro k c
      refine ⟨fun j hj => ⟨by simp [Fine.set, hj], rfl⟩, fun j hj => ?_⟩
      simp only [Fine.set] at hj ⊢
      by_cases hjk : j = k
      · simp [hjk] at hj
      · rw [if_neg hjk] at hj; exact hinv j hj
    have hlog : ∀ k c, (s.set k c).abs.log = s.abs.log := fun _ _ => rfl
    cases ev with
    | accept k =>
      simp only at h
      split at h
      · cases h
      · rename_i hk
        cases h
        have hk : s.conns k = none := by simpa using hk
        refine ⟨.inl ?_, (hset k _).2⟩
        rw [Fine.abs_eq k {} (hset k _).1 (Fine.conn_none (if_pos rfl) (hinv k hk))]
        have : s.abs.conns k = none := by simp [Fine.abs, Fine.conn, hk]
        simp only [System.step, hc', Bool.false_eq_true, if_false, this, Option.isSome_none, hlog]
        rfl
    | deliver k b =>
      simp only [Option.bind_eq_some_iff] at h
      obtain ⟨c, hk, h⟩ := h
      split at h
      · cases h
        rename_i he
        refine ⟨.inl ?_, (hset k _).2⟩
        cases hs : s.saving k with
        | none =>
          rw [Fine.abs_eq k _ (hset k _).1 (Fine.conn_none (if_pos rfl) hs)]
          simp only [System.step, hc', Bool.false_eq_true, if_false, hlog, show s.abs.conns k = _ from Fine.conn_none hk hs, Option.bind_some, he, if_true]
          rfl
        | some x =>
          rw [Fine.abs_eq k _ (hset k _).1 (Fine.conn_some (if_pos rfl) hs)]
          simp only [System.step, hc', Bool.false_eq_true, if_false, hlog, show s.abs.conns k = _ from Fine.conn_some hk hs, Option.bind_some, he, if_true]
          rfl
      · cases h
    | hangup k e =>
      simp only [Option.bind_eq_some_iff] at h
      obtain ⟨c, hk, h⟩ := h
      split at h
      · cases h
        rename_i he
        refine ⟨.inl ?_, (hset k _).2⟩
        cases hs : s.saving k with
        | none =>
          rw [Fine.abs_eq k _ (hset k _).1 (Fine.conn_none (if_pos rfl) hs)]
          simp only [System.step, hc', Bool.false_eq_true, if_false, hlog, show s.abs.conns k = _ from Fine.conn_none hk hs, Option.bind_some, he, if_true]
          rfl
        | some x =>
          rw [Fine.abs_eq k _ (hset k _).1 (Fine.conn_some (if_pos rfl) hs)]
          simp only [System.step, hc', Bool.false_eq_true, if_false, hlog, show s.abs.conns k = _ from Fine.conn_some hk hs, Option.bind_some, he, if_true]
          rfl
      · cases h
    | iterate k =>
      simp only [Option.bind_eq_some_iff] at h
      obtain ⟨c, hk, h⟩ := h
      split at h
      · cases h
      · rename_i hs
        simp only [Option.map_eq_some_iff] at h
        obtain ⟨c', hi, rfl⟩ := h
        have hs : s.saving k = none := by simpa using hs
        refine ⟨.inl ?_, (hset k _).2⟩
        rw [Fine.abs_eq k _ (hset k _).1 (Fine.conn_none (if_pos rfl) hs)]
        simp only [System.step, hc', Bool.false_eq_true, if_false, hlog, show s.abs.conns k = _ from Fine.conn_none hk hs, Option.bind_some, hi]
        rfl
    | effect k =>
      simp only [Option.bind_eq_some_iff] at h
      obtain ⟨c, hk, h⟩ := h
      split at h
      · rename_i r i hs
        cases h
        obtain ⟨o1, o2, o3, o4⟩ := s.offer_conns stores k r i
        have oinv : ∀ j, (s.offer stores k r i).conns j = none → (s.offer stores k r i).saving j = none := by
          intro j hj
          rw [o1] at hj
          by_cases hjk : j = k
          · subst hjk; rw [hk] at hj; cases hj
          · rw [o3 j hjk]; exact hinv j hj
        have oo : ∀ j, j ≠ k → (s.offer stores k r i).conns j = s.conns j ∧ (s.offer stores k r i).saving j = s.saving j :=
          fun j hj => ⟨by rw [o1], o3 j hj⟩
        refine ⟨?_, oinv⟩
        have hkc : (s.offer stores k r i).conns k = some c := by rw [o1]; exact hk
        rcases o4 with ⟨o4, o5⟩ | ⟨o4, e, o5⟩
        · refine .inr ⟨⟨k, rfl⟩, ?_⟩
          unfold Fine.abs
          rw [o2, o5]
          congr 1
          funext j
          by_cases hj : j = k
          · subst hj
            rw [Fine.conn_some hk hs, Fine.conn_some hkc o4]
          · simp [Fine.conn, oo j hj]
        · left
          rw [Fine.abs_eq k _ oo (Fine.conn_none hkc o4)]
          simp only [System.step, hc', Bool.false_eq_true, if_false, show s.abs.conns k = _ from Fine.conn_some hk hs, Option.bind_some]
          simp only [System.perform, System.set, Repository.save, Fine.abs, o2, o5, hcr, List.map_append]
          rfl
      · rename_i hs
        have fin : ∀ x rest (o : Outcome E) (cr : Bool), c.pending = x :: rest → o.blank = .other x → (∀ r, x ≠ .save r) → (cr = true ↔ x = .crash) →
            s.abs.step env ce [] (.effect k) = some ({ (s.note k o).set k { c with pending := rest } with crashed := cr } : Fine W E).abs := by
          intro x rest o cr hp ho hx hcx
          rw [Fine.abs_eq (s := s) (s' := ({ (s.note k o).set k { c with pending := rest } with crashed := cr } : Fine W E)) k { c with pending := rest }
            (fun j hj => ⟨if_neg hj, rfl⟩) (Fine.conn_none (if_pos rfl) hs)]
          simp only [System.step, hc', Bool.false_eq_true, if_false, show s.abs.conns k = _ from Fine.conn_none hk hs, Option.bind_some, hp]
          cases x with
          | save r => exact absurd rfl (hx r)
          | crash =>
            have hcx : cr = true := hcx.mpr rfl
            subst hcx
            simp [System.perform, System.set, Fine.abs, Fine.note, Fine.set, ho]
          | _ =>
            have hcx : cr = false := by
              cases cr with
              | false => rfl
              | true => exact absurd (hcx.mp rfl) (by simp)
            subst hcx
            simp [System.perform, System.set, Fine.abs, Fine.note, Fine.set, ho, hcr]
        have hi : ∀ c' (t : Fine W E), t.saving = s.saving → t.conns = (s.set k c').conns → ∀ j, t.conns j = none → t.saving j = none := by
          intro c' t ht1 ht2 j hj
          rw [ht1]
          rw [ht2] at hj
          exact (hset k c').2 j hj
        split at h
        · cases h
        · rename_i r rest hp
          cases h
          refine ⟨.inr ⟨⟨k, rfl⟩, ?_⟩, ?_⟩
          · unfold Fine.abs
            congr 1
            funext j
            by_cases hj : j = k
            · subst hj
              rw [Fine.conn_none hk hs, Fine.conn_some (x := (r, 0)) (c := { c with pending := rest }) (if_pos rfl) (if_pos rfl)]
              simp [← hp]
            · simp [Fine.conn, Fine.set, Fine.setSaving, hj]
          · intro j hj
            simp only [Fine.set, Fine.setSaving] at hj ⊢
            by_cases hjk : j = k
            · simp [hjk] at hj
            · rw [if_neg hjk] at hj ⊢
              exact hinv j hj
        · rename_i rest hp
          cases h
          exact ⟨.inl (fin .crash rest _ true hp rfl (by simp) (by simp)), hi _ _ rfl rfl⟩
        · rename_i x rest hx1 hx2 hp
          cases h
          have := fin x rest (.other x) false hp rfl (fun r hr => hx1 r hr) (by simpa using hx2)
          rw [← hcr] at this
          exact ⟨.inl this, hi _ _ rfl rfl⟩

theorem Fine.exec_append (env : Env) (ce : Nat → ConnEnv) (stores : List (Saver W E)) (s : Fine W E) (a b : List Event) :
    Fine.exec env ce stores s (a ++ b) = (Fine.exec env ce stores s a).bind fun s => Fine.exec env ce stores s b := by
  induction a generalizing s with
  | nil => rfl
  | cons ev a ih =>
    simp only [List.cons_append, Fine.exec]
    cases s.step env ce stores ev with
    | none => rfl
    | some q => exact ih q

theorem Fine.init_abs (w : W) : ({ world := w } : Fine W E).abs = { world := () } := rfl

theorem Fine.exec_abs {env : Env} {ce : Nat → ConnEnv} {stores : List (Saver W E)} {w : W} {evs : List Event} {s : Fine W E}
    (h : Fine.exec env ce stores { world := w } evs = some s) :
    (∀ k, s.conns k = none → s.saving k = none) ∧
    ∃ evs', System.exec env ce [] { world := () } evs' = some s.abs ∧
      (∀ k, receivedOn k evs' = receivedOn k evs) ∧ (∀ k, endingOf k evs' = endingOf k evs) ∧
      evs'.Sublist evs ∧ ∀ k, .accept k ∈ evs → .accept k ∈ evs' := by
  induction evs using List.reverseRecOn generalizing s with
  | nil => cases h; exact ⟨fun _ _ => rfl, [], rfl, fun _ => rfl, fun _ => rfl, .refl _, fun _ h => h⟩
  | append_singleton evs ev ih =>
    rw [Fine.exec_append, Option.bind_eq_some_iff] at h
    obtain ⟨s1, h1, h2⟩ := h
    simp only [Fine.exec, Option.bind_eq_some_iff] at h2
    obtain ⟨s2, h2, h3⟩ := h2
    cases h3
    obtain ⟨i1, evs', i2, i3, i4, i5, i6⟩ := ih h1
    obtain ⟨j1, j2⟩ := Fine.sim i1 h2
    refine ⟨j2, ?_⟩
    rcases j1 with j1 | ⟨⟨k, rfl⟩, j1⟩
    · refine ⟨evs' ++ [ev], ?_, fun k => ?_, fun k => ?_, i5.append (.refl _), fun k hk => ?_⟩
      · rw [System.exec_append, i2]
        simp [System.exec, j1]
      · rw [receivedOn_append, receivedOn_append, i3]
      · rw [endingOf_append, endingOf_append, i4]
      · rw [List.mem_append] at hk ⊢
        exact hk.imp (i6 k) id
    · refine ⟨evs', by rw [j1]; exact i2, fun k => ?_, fun k => ?_, i5.trans (List.sublist_append_left _ _), fun j hj => ?_⟩
      · rw [receivedOn_append, i3]; exact (List.append_nil _).symm
      · rw [endingOf_append, i4]
      · rw [List.mem_append] at hj
        rcases hj with hj | hj
        · exact i6 j hj
        · simp at hj

/-! ## The offers -/

/-- The offers of the save in progress. -/
def Fine.current (s : Fine W E) (k : Nat) : List (NavRecord × Nat × Option E) :=
  match s.saving k with
  | some (r, i) => acceptedUpTo r i
  | none => []

/-- The offers of goroutine `k` are those of its attempts. -/
def Fine.OffersOk (n : Nat) (s : Fine W E) (k : Nat) : Prop :=
  (∃ chunks, List.Forall₂ (IsAttempt n) chunks (s.attemptsOf k) ∧ s.offersOf k = chunks.flatten ++ s.current k) ∧
  ∀ r i, s.saving k = some (r, i) → i ≤ n

theorem Fine.OffersOk.congr {n : Nat} {s s' : Fine W E} {k : Nat} (h : s.OffersOk n k) (h1 : s'.attemptsOf k = s.attemptsOf k)
    (h2 : s'.offersOf k = s.offersOf k) (h3 : s'.saving k = s.saving k) : s'.OffersOk n k := by
  unfold Fine.OffersOk Fine.current at *
  rw [h1, h2, h3]
  exact h

theorem Served.append {stores : List (Saver W E)} {w w' : W} {l : List (Nat × NavRecord × Nat × Option E)} (h : Served stores w l w')
    (k : Nat) (r : NavRecord) (i : Nat) (st : Saver W E) (hi : stores[i]? = some st) :
    Served stores w (l ++ [(k, r, i, (st r w').2)]) (st r w').1 := by
  induction l generalizing w with
  | nil => cases h; exact ⟨st, hi, rfl, rfl⟩
  | cons x l ih =>
    obtain ⟨st', h1, h2, h3⟩ := h
    exact ⟨st', h1, h2, ih h3⟩

theorem acceptedUpTo_succ (r : NavRecord) (i : Nat) : acceptedUpTo (E := E) r (i + 1) = acceptedUpTo r i ++ [(r, i, none)] := by
  simp [acceptedUpTo, List.range_succ]

theorem attemptsOf_note (s : Fine W E) (k j : Nat) (o : Outcome E) :
    (s.note k o).attemptsOf j = s.attemptsOf j ++ (if k = j then attempts [o] else []) := by
  unfold Fine.attemptsOf Fine.note attempts
  by_cases h : k = j
  · simp [h, List.filter_append, List.filterMap_append]
  · simp [h, List.filter_append]

theorem Fine.offers_step {env : Env} {ce : Nat → ConnEnv} {stores : List (Saver W E)} {s s' : Fine W E} {ev : Event} {w : W}
    (h : s.step env ce stores ev = some s') (hw : Served stores w s.offers s.world) (hk : ∀ k, s.OffersOk stores.length k) :
    Served stores w s'.offers s'.world ∧ ∀ k, s'.OffersOk stores.length k := by
  unfold Fine.step at h
  split at h
  · cases h
  · cases ev with
    | accept k =>
      simp only at h
      split at h
      · cases h
      · cases h; exact ⟨hw, fun j => (hk j).congr rfl rfl rfl⟩
    | deliver k b =>
      simp only [Option.bind_eq_some_iff] at h
      obtain ⟨c, _, h⟩ := h
      split at h
      · cases h; exact ⟨hw, fun j => (hk j).congr rfl rfl rfl⟩
      · cases h
    | hangup k b =>
      simp only [Option.bind_eq_some_iff] at h
      obtain ⟨c, _, h⟩ := h
      split at h
      · cases h; exact ⟨hw, fun j => (hk j).congr rfl rfl rfl⟩
      · cases h
    | iterate k =>
      simp only [Option.bind_eq_some_iff] at h
      obtain ⟨c, _, h⟩ := h
      split at h
      · cases h
      · simp only [Option.map_eq_some_iff] at h
        obtain ⟨c', _, rfl⟩ := h
        exact ⟨hw, fun j => (hk j).congr rfl rfl rfl⟩
    | effect k =>
      simp only [Option.bind_eq_some_iff] at h
      obtain ⟨c, _, h⟩ := h
      split at h
      · rename_i r i hs
        cases h
        obtain ⟨⟨chunks, c1, c2⟩, c3⟩ := hk k
        have hle := c3 r i hs
        have hcur : s.current k = acceptedUpTo r i := by simp [Fine.current, hs]
        rw [hcur] at c2
        unfold Fine.offer
        split
        · rename_i hi
          have hin : i = stores.length := by
            have := List.getElem?_eq_none_iff.mp hi
            omega
          refine ⟨hw, fun j => ?_⟩
          by_cases hj : j = k
          · subst hj
            refine ⟨⟨chunks ++ [acceptedUpTo r i], ?_, ?_⟩, fun r' i' h' => ?_⟩
            · have e : ((s.note j (.saved r none)).setSaving j none).attemptsOf j = s.attemptsOf j ++ [(r, none)] := by
                show (s.note j (.saved r none)).attemptsOf j = _
                rw [attemptsOf_note, if_pos rfl]; rfl
              rw [e]
              refine List.rel_append c1 (.cons ?_ .nil)
              show _ = acceptedUpTo r stores.length
              rw [hin]
            · show s.offersOf j = _
              rw [c2]
              simp [Fine.current, Fine.setSaving]
            · simp [Fine.setSaving] at h'
          · exact (hk j).congr (by
              show (s.note k (.saved r none)).attemptsOf j = _
              rw [attemptsOf_note, if_neg (Ne.symm hj), List.append_nil]) rfl (if_neg hj)
        · rename_i st hi
          have hlt : i < stores.length := by
            obtain ⟨h, _⟩ := List.getElem?_eq_some_iff.mp hi
            exact h
          have hw' := hw.append k r i st hi
          rcases hst : st r s.world with ⟨w1, e⟩
          rw [hst] at hw'
          have hoff : ∀ (t : Fine W E) j, t.offers = s.offers ++ [(k, r, i, e)] → t.offersOf j = s.offersOf j ++ (if k = j then [(r, i, e)] else []) := by
            intro t j ht
            unfold Fine.offersOf
            rw [ht]
            by_cases h : k = j
            · simp [h, List.filter_append]
            · simp [h, List.filter_append]
          cases e with
          | none =>
            refine ⟨hw', fun j => ?_⟩
            by_cases hj : j = k
            · subst hj
              refine ⟨⟨chunks, c1, ?_⟩, fun r' i' h' => ?_⟩
              · rw [hoff _ j rfl, if_pos rfl, c2, List.append_assoc]
                congr 1
                simp [Fine.current, Fine.setSaving, acceptedUpTo_succ]
              · simp [Fine.setSaving] at h'
                omega
            · exact (hk j).congr rfl (by rw [hoff _ j rfl, if_neg (Ne.symm hj), List.append_nil]) (if_neg hj)
          | some e =>
            refine ⟨hw', fun j => ?_⟩
            by_cases hj : j = k
            · subst hj
              refine ⟨⟨chunks ++ [acceptedUpTo r i ++ [(r, i, some e)]], ?_, ?_⟩, fun r' i' h' => ?_⟩
              · have ea : ∀ t : Fine W E, t.log = s.log ++ [(j, .saved r (some e))] → t.attemptsOf j = s.attemptsOf j ++ [(r, some e)] := by
                  intro t ht
                  have := attemptsOf_note s j j (.saved r (some e))
                  rw [if_pos rfl] at this
                  unfold Fine.attemptsOf at this ⊢
                  rw [ht]
                  exact this
                rw [ea _ rfl]
                exact List.rel_append c1 (.cons ⟨i, hlt, rfl⟩ .nil)
              · rw [hoff _ j rfl, if_pos rfl, c2]
                simp [Fine.current, Fine.setSaving]
              · simp [Fine.setSaving] at h'
            · refine (hk j).congr ?_ (by rw [hoff _ j rfl, if_neg (Ne.symm hj), List.append_nil]) (if_neg hj)
              have := attemptsOf_note s k j (.saved r (some e))
              rw [if_neg (Ne.symm hj), List.append_nil] at this
              exact this
      · rename_i hs
        have fin : ∀ (t : Fine W E) x, (∀ r, x ≠ Effect.save r) → t.log = s.log ++ [(k, .other x)] → t.offers = s.offers → t.saving = s.saving →
            ∀ j, t.OffersOk stores.length j := by
          intro t x hx h1 h2 h3 j
          refine (hk j).congr ?_ (by unfold Fine.offersOf; rw [h2]) (by rw [h3])
          have := attemptsOf_note s k j (.other x)
          have hz : attempts [Outcome.other (E := E) x] = [] := rfl
          rw [hz, ite_self, List.append_nil] at this
          unfold Fine.attemptsOf at this ⊢
          rw [h1]
          exact this
        split at h
        · cases h
        · rename_i r rest hp
          cases h
          refine ⟨hw, fun j => ?_⟩
          by_cases hj : j = k
          · subst hj
            obtain ⟨⟨chunks, c1, c2⟩, _⟩ := hk j
            refine ⟨⟨chunks, c1, ?_⟩, fun r' i' h' => ?_⟩
            · have hcur : s.current j = [] := by simp [Fine.current, hs]
              rw [hcur] at c2
              refine c2.trans ?_
              simp [Fine.current, Fine.setSaving, Fine.set, acceptedUpTo]
            · simp [Fine.setSaving, Fine.set] at h'
              omega
          · exact (hk j).congr rfl rfl (if_neg hj)
        · cases h
          exact ⟨hw, fin _ .crash (by simp) rfl rfl rfl⟩
        · rename_i x rest hx1 hx2 hp
          cases h
          exact ⟨hw, fin _ x hx1 rfl rfl rfl⟩

theorem Fine.exec_offers {env : Env} {ce : Nat → ConnEnv} {stores : List (Saver W E)} {w : W} {evs : List Event} {s : Fine W E}
    (h : Fine.exec env ce stores { world := w } evs = some s) :
    Served stores w s.offers s.world ∧ ∀ k, s.OffersOk stores.length k := by
  induction evs using List.reverseRecOn generalizing s with
  | nil =>
    cases h
    exact ⟨rfl, fun k => ⟨⟨[], .nil, rfl⟩, fun _ _ h => by cases h⟩⟩
  | append_singleton evs ev ih =>
    rw [Fine.exec_append, Option.bind_eq_some_iff] at h
    obtain ⟨s1, h1, h2⟩ := h
    simp only [Fine.exec, Option.bind_eq_some_iff] at h2
    obtain ⟨s2, h2, h3⟩ := h2
    cases h3
    obtain ⟨i1, i2⟩ := ih h1
    exact Fine.offers_step h2 i1 i2

/-! ## Progress -/

def Fine.left (stores : List (Saver W E)) (s : Fine W E) (k : Nat) : Nat :=
  match s.saving k with
  | some (_, i) => stores.length - i
  | none => stores.length + 1

theorem Fine.stutter {env : Env} {ce : Nat → ConnEnv} {stores : List (Saver W E)} {s s' : Fine W E} {k : Nat}
    (h : s.step env ce stores (.effect k) = some s') (ha : s'.abs = s.abs) : s'.left stores k < s.left stores k := by
  have hl : s'.log.length = s.log.length := by
    have := congrArg (fun t => t.log.length) ha
    simpa [Fine.abs] using this
  unfold Fine.step at h
  split at h
  · cases h
  · simp only [Option.bind_eq_some_iff] at h
    obtain ⟨c, hk, h⟩ := h
    split at h
    · rename_i r i hs
      cases h
      unfold Fine.offer at hl ⊢
      split at hl
      · simp [Fine.note, Fine.setSaving] at hl
      · rename_i st hi
        have hlt : i < stores.length := (List.getElem?_eq_some_iff.mp hi).1
        rcases hst : st r s.world with ⟨w1, _ | e⟩
        · simp only [Fine.left, hs, Fine.setSaving, if_true]
          omega
        · rw [hst] at hl
          simp [Fine.note, Fine.setSaving] at hl
    · rename_i hs
      split at h
      · cases h
      · cases h
        simp [Fine.left, hs, Fine.setSaving, Fine.set]
      · cases h; simp [Fine.note, Fine.set] at hl
      · cases h; simp [Fine.note, Fine.set] at hl

theorem Fine.can_effect {env : Env} {ce : Nat → ConnEnv} {stores : List (Saver W E)} {k : Nat} {t : System Unit Unit} {s : Fine W E}
    (h : s.abs.step env ce [] (.effect k) = some t) : ∃ s', s.step env ce stores (.effect k) = some s' := by
  unfold System.step at h
  split at h
  · cases h
  · rename_i hc
    have hc : s.crashed = false := by simpa [Fine.abs] using hc
    simp only [Option.bind_eq_some_iff] at h
    obtain ⟨c', hk, h⟩ := h
    cases hkk : s.conns k with
    | none => simp [Fine.abs, Fine.conn, hkk] at hk
    | some c =>
      simp only [Fine.step, hc, Bool.false_eq_true, if_false, hkk, Option.bind_some]
      cases hs : s.saving k with
      | some x => exact ⟨_, rfl⟩
      | none =>
        have : s.abs.conns k = some c := Fine.conn_none hkk hs
        rw [this] at hk
        cases hk
        cases hp : c'.pending with
        | nil => rw [hp] at h; cases h
        | cons x rest => cases x <;> exact ⟨_, rfl⟩

theorem Fine.lift_effect {env : Env} {ce : Nat → ConnEnv} {stores : List (Saver W E)} {k : Nat} {t : System Unit Unit} (m : Nat) {s : Fine W E}
    (hm : s.left stores k ≤ m) (hinv : ∀ k, s.conns k = none → s.saving k = none) (h : s.abs.step env ce [] (.effect k) = some t) :
    ∃ (evs : List Event) (s' : Fine W E), (∀ ev ∈ evs, ev = .iterate k ∨ ev = .effect k) ∧ Fine.exec env ce stores s evs = some s' ∧ s'.abs = t := by
  induction m generalizing s with
  | zero =>
    obtain ⟨s', hs⟩ := Fine.can_effect (stores := stores) h
    rcases (Fine.sim hinv hs).1 with h' | ⟨_, h'⟩
    · rw [h] at h'
      cases h'
      exact ⟨[.effect k], s', by simp, by simp [Fine.exec, hs], rfl⟩
    · have := Fine.stutter hs h'
      omega
  | succ m ih =>
    obtain ⟨s', hs⟩ := Fine.can_effect (stores := stores) h
    obtain ⟨h1, h2⟩ := Fine.sim hinv hs
    rcases h1 with h' | ⟨_, h'⟩
    · rw [h] at h'
      cases h'
      exact ⟨[.effect k], s', by simp, by simp [Fine.exec, hs], rfl⟩
    · have hlt := Fine.stutter hs h'
      rw [← h'] at h
      obtain ⟨evs, s2, e1, e2, e3⟩ := ih (by omega) h2 h
      refine ⟨.effect k :: evs, s2, ?_, by simp [Fine.exec, hs, e2], e3⟩
      intro ev hev
      rcases List.mem_cons.mp hev with rfl | hev
      · exact .inr rfl
      · exact e1 ev hev

theorem Fine.exec_inv {env : Env} {ce : Nat → ConnEnv} {stores : List (Saver W E)} {evs : List Event} {s s' : Fine W E}
    (hinv : ∀ k, s.conns k = none → s.saving k = none) (h : Fine.exec env ce stores s evs = some s') : ∀ k, s'.conns k = none → s'.saving k = none := by
  induction evs generalizing s with
  | nil => cases h; exact hinv
  | cons ev evs ih =>
    simp only [Fine.exec, Option.bind_eq_some_iff] at h
    obtain ⟨s1, h1, h2⟩ := h
    exact ih (Fine.sim hinv h1).2 h2

/-- Steps of one goroutine can be carried out when saves take time. -/
theorem Fine.lift {env : Env} {ce : Nat → ConnEnv} {stores : List (Saver W E)} {k : Nat} {t : System Unit Unit} {evs : List Event} {s : Fine W E}
    (hev : ∀ ev ∈ evs, ev = .iterate k ∨ ev = .effect k) (hinv : ∀ k, s.conns k = none → s.saving k = none)
    (h : System.exec env ce [] s.abs evs = some t) :
    ∃ (more : List Event) (s' : Fine W E), (∀ ev ∈ more, ev = .iterate k ∨ ev = .effect k) ∧ Fine.exec env ce stores s more = some s' ∧ s'.abs = t := by
  induction evs generalizing s with
  | nil => cases h; exact ⟨[], s, by simp, rfl, rfl⟩
  | cons ev evs ih =>
    simp only [System.exec, Option.bind_eq_some_iff] at h
    obtain ⟨t1, h1, h2⟩ := h
    have hone : ∃ (more : List Event) (s' : Fine W E), (∀ ev ∈ more, ev = .iterate k ∨ ev = .effect k) ∧ Fine.exec env ce stores s more = some s' ∧ s'.abs = t1 := by
      rcases hev ev (by simp) with rfl | rfl
      · unfold System.step at h1
        split at h1
        · cases h1
        · rename_i hc
          have hc : s.crashed = false := by simpa [Fine.abs] using hc
          simp only [Option.bind_eq_some_iff, Option.map_eq_some_iff] at h1
          obtain ⟨c', hk, c'', hi, rfl⟩ := h1
          cases hkk : s.conns k with
          | none => simp [Fine.abs, Fine.conn, hkk] at hk
          | some c =>
            cases hs : s.saving k with
            | some x =>
              have : s.abs.conns k = _ := Fine.conn_some hkk hs
              rw [this] at hk
              cases hk
              simp [ConnState.iterate] at hi
            | none =>
              have : s.abs.conns k = _ := Fine.conn_none hkk hs
              rw [this] at hk
              cases hk
              have hst : s.step env ce stores (.iterate k) = some (s.set k c'') := by
                simp [Fine.step, hc, hkk, hs, hi]
              refine ⟨[.iterate k], s.set k c'', by simp, by simp [Fine.exec, hst], ?_⟩
              rw [Fine.abs_eq (s := s) (s' := s.set k c'') k c'' (fun j hj => ⟨if_neg hj, rfl⟩) (Fine.conn_none (if_pos rfl) hs)]
              rfl
      · exact Fine.lift_effect _ (Nat.le_refl _) hinv h1
    obtain ⟨m1, s1, a1, a2, a3⟩ := hone
    rw [← a3] at h2
    obtain ⟨m2, s2, b1, b2, b3⟩ := ih (fun e he => hev e (by simp [he])) (Fine.exec_inv hinv a2) h2
    refine ⟨m1 ++ m2, s2, ?_, by rw [Fine.exec_append, a2]; exact b2, b3⟩
    intro e he
    rcases List.mem_append.mp he with he | he
    · exact a1 e he
    · exact b1 e he

/-- A goroutine that has nothing left to do. -/
theorem Fine.quiet_iff {env : Env} {ce : Nat → ConnEnv} {stores : List (Saver W E)} {s : Fine W E} {k : Nat} {c : ConnState}
    (hk : s.conns k = some c) (hc : s.crashed = false) :
    (s.step env ce stores (.iterate k) = none ∧ s.step env ce stores (.effect k) = none) ↔
      s.saving k = none ∧ c.pending = [] ∧ c.iterate env (ce k) = none := by
  simp only [Fine.step, hc, Bool.false_eq_true, if_false, hk, Option.bind_some]
  cases hs : s.saving k with
  | some x => simp
  | none =>
    simp only [Option.isSome_none, Bool.false_eq_true, if_false, Option.map_eq_none_iff, true_and]
    cases hp : c.pending with
    | nil => simp
    | cons x rest => cases x <;> simp

/-! ## Saves that take no time -/

/-- Neither a save in progress nor any other difference. -/
def Fine.Same (f : Fine W E) (s : System W E) : Prop :=
  f.conns = s.conns ∧ (∀ k, f.saving k = none) ∧ f.world = s.world ∧ f.log = s.log ∧ f.crashed = s.crashed

theorem Fine.save_run {env : Env} {ce : Nat → ConnEnv} {stores : List (Saver W E)} (k : Nat) (r : NavRecord) (todo : List (Saver W E)) (f : Fine W E)
    (i : Nat) (hi : stores.drop i = todo) (hs : f.saving k = some (r, i)) (hc : f.crashed = false) (c : ConnState) (hk : f.conns k = some c) :
    ∃ (n : Nat) (f' : Fine W E), Fine.exec env ce stores f (List.replicate n (.effect k)) = some f' ∧ f'.conns = f.conns ∧
      f'.saving k = none ∧ (∀ j, j ≠ k → f'.saving j = f.saving j) ∧ f'.crashed = false ∧ f'.world = (Repository.save todo r f.world).1 ∧
      f'.log = f.log ++ [(k, .saved r (Repository.save todo r f.world).2)] := by
  have hst : f.step env ce stores (.effect k) = some (f.offer stores k r i) := by simp [Fine.step, hc, hk, hs]
  induction todo generalizing f i with
  | nil =>
    have : stores[i]? = none := by
      rw [List.getElem?_eq_none_iff]
      exact List.drop_eq_nil_iff.mp hi
    refine ⟨1, f.offer stores k r i, by simp [List.replicate, Fine.exec, hst], ?_⟩
    unfold Fine.offer
    rw [this]
    exact ⟨rfl, if_pos rfl, fun j hj => if_neg hj, hc, rfl, rfl⟩
  | cons st todo ih =>
    have h0 : stores[i]? = some st := by
      have := congrArg List.head? hi
      simpa [List.head?_drop] using this
    have h1 : stores.drop (i + 1) = todo := by
      rw [← List.drop_drop, hi]; rfl
    rcases hw : st r f.world with ⟨w, e⟩
    cases e with
    | some e =>
      refine ⟨1, f.offer stores k r i, by simp [List.replicate, Fine.exec, hst], ?_⟩
      unfold Fine.offer Repository.save
      simp only [h0, hw]
      exact ⟨rfl, if_pos rfl, fun j hj => if_neg hj, hc, rfl, rfl⟩
    | none =>
      have ho : f.offer stores k r i = { f with world := w, offers := f.offers ++ [(k, r, i, none)] }.setSaving k (some (r, i + 1)) := by
        unfold Fine.offer
        simp only [h0, hw]
      rw [ho] at hst
      have hsv : Repository.save (st :: todo) r f.world = Repository.save todo r w := by
        simp only [Repository.save, hw]
      rw [hsv]
      obtain ⟨n, f', e1, e2, e3, e4, e5, e6, e7⟩ := ih ({ f with world := w, offers := f.offers ++ [(k, r, i, none)] }.setSaving k (some (r, i + 1))) (i + 1) h1
        (if_pos rfl) hc hk (by simp [Fine.step, Fine.setSaving, hc, hk])
      refine ⟨n + 1, f', ?_, e2, e3, fun j hj => (e4 j hj).trans (if_neg hj), e5, e6, e7⟩
      rw [List.replicate_succ]
      simp only [Fine.exec, hst, Option.bind_some]
      exact e1

theorem Fine.same_step {env : Env} {ce : Nat → ConnEnv} {stores : List (Saver W E)} {f : Fine W E} {s s' : System W E} {ev : Event}
    (hf : f.Same s) (h : s.step env ce stores ev = some s') :
    ∃ evs f', Fine.exec env ce stores f evs = some f' ∧ f'.Same s' ∧ ∀ k, receivedOn k evs = receivedOn k [ev] ∧ endingOf k evs = endingOf k [ev] := by
  obtain ⟨h1, h2, h3, h4, h5⟩ := hf
  have one : ∀ f', f.step env ce stores ev = some f' → f'.Same s' → ∃ evs f', Fine.exec env ce stores f evs = some f' ∧ f'.Same s' ∧
      ∀ k, receivedOn k evs = receivedOn k [ev] ∧ endingOf k evs = endingOf k [ev] :=
    fun f' hs hsm => ⟨[ev], f', by simp [Fine.exec, hs], hsm, fun _ => ⟨rfl, rfl⟩⟩
  unfold System.step at h
  split at h
  · cases h
  · rename_i hc
    have hcf : f.crashed = false := by rw [h5]; simpa using hc
    have hset : ∀ k c, (f.set k c).Same (s.set k c) := fun k c => ⟨by simp [Fine.set, System.set, h1], h2, h3, h4, h5⟩
    cases ev with
    | accept k =>
      simp only at h
      split at h
      · cases h
      · rename_i hk
        cases h
        exact one _ (by simp [Fine.step, hcf, h1, hk]) (hset _ _)
    | deliver k b =>
      simp only [Option.bind_eq_some_iff] at h
      obtain ⟨c, hk, h⟩ := h
      split at h
      · rename_i he
        cases h
        exact one _ (by simp [Fine.step, hcf, h1, hk, he]) (hset _ _)
      · cases h
    | hangup k b =>
      simp only [Option.bind_eq_some_iff] at h
      obtain ⟨c, hk, h⟩ := h
      split at h
      · rename_i he
        cases h
        exact one _ (by simp [Fine.step, hcf, h1, hk, he]) (hset _ _)
      · cases h
    | iterate k =>
      simp only [Option.bind_eq_some_iff, Option.map_eq_some_iff] at h
      obtain ⟨c, hk, c', hi, rfl⟩ := h
      exact one (f.set k c') (by simp [Fine.step, hcf, h1, hk, h2, hi]) (hset _ _)
    | effect k =>
      simp only [Option.bind_eq_some_iff] at h
      obtain ⟨c, hk, h⟩ := h
      cases hp : c.pending with
      | nil => rw [hp] at h; cases h
      | cons x rest =>
        rw [hp] at h
        cases h
        cases x with
        | save r =>
          have hst : f.step env ce stores (.effect k) = some ((f.setSaving k (some (r, 0))).set k { c with pending := rest }) := by
            simp [Fine.step, hcf, h1, hk, h2, hp]
          obtain ⟨n, f', e1, e2, e3, e4, e5, e6, e7⟩ := Fine.save_run (env := env) (ce := ce) (stores := stores) k r stores
            ((f.setSaving k (some (r, 0))).set k { c with pending := rest }) 0 rfl (if_pos rfl) hcf { c with pending := rest } (if_pos rfl)
          refine ⟨.effect k :: List.replicate n (.effect k), f', by simp [Fine.exec, hst, e1], ⟨?_, fun j => ?_, ?_, ?_, ?_⟩, fun j => ?_⟩
          · rw [e2]
            simp [Fine.set, Fine.setSaving, System.set, System.perform, h1]
          · by_cases hj : j = k
            · rw [hj]; exact e3
            · rw [e4 j hj]
              exact (if_neg hj).trans (h2 j)
          · rw [e6]
            simp [Fine.set, Fine.setSaving, System.set, System.perform, h3]
          · rw [e7]
            simp [Fine.set, Fine.setSaving, System.set, System.perform, h3, h4]
          · rw [e5]
            simp [System.set, System.perform, ← h5, hcf]
          · have : ∀ n, receivedOn j (List.replicate n (Event.effect k)) = [] ∧ endingOf j (List.replicate n (Event.effect k)) = .blocked := by
              intro n
              induction n with
              | zero => exact ⟨rfl, rfl⟩
              | succ n ih => exact ih
            exact this (n + 1)
        | crash =>
          refine one (f' := { (f.note k (.other .crash)).set k { c with pending := rest } with crashed := true }) ?_ ?_
          · simp [Fine.step, hcf, h1, hk, h2, hp]
          · exact ⟨by simp [Fine.set, Fine.note, System.set, System.perform, h1], h2, h3,
              by simp [Fine.set, Fine.note, System.set, System.perform, h4], rfl⟩
        | write b =>
          refine one ((f.note k (.other (.write b))).set k { c with pending := rest }) ?_ ?_
          · simp [Fine.step, hcf, h1, hk, h2, hp]
          · exact ⟨by simp [Fine.set, Fine.note, System.set, System.perform, h1], h2, h3,
              by simp [Fine.set, Fine.note, System.set, System.perform, h4], h5⟩
        | waitTimer =>
          refine one ((f.note k (.other .waitTimer)).set k { c with pending := rest }) ?_ ?_
          · simp [Fine.step, hcf, h1, hk, h2, hp]
          · exact ⟨by simp [Fine.set, Fine.note, System.set, System.perform, h1], h2, h3,
              by simp [Fine.set, Fine.note, System.set, System.perform, h4], h5⟩
        | close =>
          refine one ((f.note k (.other .close)).set k { c with pending := rest }) ?_ ?_
          · simp [Fine.step, hcf, h1, hk, h2, hp]
          · exact ⟨by simp [Fine.set, Fine.note, System.set, System.perform, h1], h2, h3,
              by simp [Fine.set, Fine.note, System.set, System.perform, h4], h5⟩

theorem Fine.same_exec {env : Env} {ce : Nat → ConnEnv} {stores : List (Saver W E)} (evs : List Event) {f : Fine W E} {s s' : System W E}
    (hf : f.Same s) (h : System.exec env ce stores s evs = some s') :
    ∃ evs' f', Fine.exec env ce stores f evs' = some f' ∧ f'.Same s' ∧ ∀ k, receivedOn k evs' = receivedOn k evs := by
  induction evs generalizing f s with
  | nil => cases h; exact ⟨[], f, rfl, hf, fun _ => rfl⟩
  | cons ev evs ih =>
    simp only [System.exec, Option.bind_eq_some_iff] at h
    obtain ⟨s1, h1, h2⟩ := h
    obtain ⟨e1, f1, a1, a2, a3⟩ := Fine.same_step hf h1
    obtain ⟨e2, f2, b1, b2, b3⟩ := ih a2 h2
    refine ⟨e1 ++ e2, f2, by rw [Fine.exec_append, a1]; exact b1, b2, fun k => ?_⟩
    rw [receivedOn_append, (a3 k).1, b3 k, ← receivedOn_append]
    rfl

/-! ## Goroutines at rest -/

theorem Fine.quiet_abs {env : Env} {ce : Nat → ConnEnv} {stores : List (Saver W E)} {s : Fine W E} {k : Nat} {c : ConnState}
    (hk : s.conns k = some c) (hc : s.crashed = false) :
    (s.step env ce stores (.iterate k) = none ∧ s.step env ce stores (.effect k) = none) ↔
      (s.abs.step env ce [] (.iterate k) = none ∧ s.abs.step env ce [] (.effect k) = none) := by
  rw [Fine.quiet_iff hk hc]
  have hca : s.abs.crashed = false := hc
  cases hs : s.saving k with
  | none =>
    have : s.abs.conns k = some c := Fine.conn_none hk hs
    simp only [System.step, hca, Bool.false_eq_true, if_false, this, Option.bind_some, Option.map_eq_none_iff, true_and]
    cases hp : c.pending with
    | nil => simp
    | cons x rest => simp
  | some x =>
    have : s.abs.conns k = some { c with pending := .save x.1 :: c.pending } := Fine.conn_some hk hs
    simp [System.step, hca, this]

theorem Fine.exec_saving {env : Env} {ce : Nat → ConnEnv} {stores : List (Saver W E)} {w : W} {evs : List Event} {s : Fine W E}
    (h : Fine.exec env ce stores { world := w } evs = some s) {k : Nat} {r : NavRecord} {i : Nat} (hs : s.saving k = some (r, i)) :
    s.doneBy k ++ [.save r] <+: handleConn env (ce k) (receivedOn k evs) (endingOf k evs) := by
  obtain ⟨h0, evs', h1, h2, h3, _⟩ := Fine.exec_abs h
  cases hk : s.conns k with
  | none => rw [h0 k hk] at hs; cases hs
  | some c =>
    have hinv := SysInv.exec evs' h1 k
    rw [show s.abs.conns k = _ from Fine.conn_some hk hs] at hinv
    have := (hinv.perform rfl).prefix
    rwa [h2, h3, doneBy_abs] at this

/-! ## Storages that accept everything -/

theorem Served.answers {stores : List (Saver W E)} (hok : ∀ st ∈ stores, ∀ r w, (st r w).2 = none) {w w' : W}
    {l : List (Nat × NavRecord × Nat × Option E)} (h : Served stores w l w') : ∀ x ∈ l, x.2.2.2 = none := by
  induction l generalizing w with
  | nil => simp
  | cons x l ih =>
    obtain ⟨k, r, i, e⟩ := x
    obtain ⟨st, h1, h2, h3⟩ := h
    intro y hy
    rcases List.mem_cons.mp hy with rfl | hy
    · rw [← h2]; exact hok st (List.mem_of_getElem? h1) r w
    · exact ih h3 y hy

/-- Saves are logged with their results. -/
theorem Fine.log_saves {env : Env} {ce : Nat → ConnEnv} {stores : List (Saver W E)} {w : W} {evs : List Event} {s : Fine W E}
    (h : Fine.exec env ce stores { world := w } evs = some s) : ∀ x ∈ s.log, ∀ r, x.2 ≠ .other (.save r) := by
  induction evs using List.reverseRecOn generalizing s with
  | nil => cases h; simp
  | append_singleton evs ev ih =>
    rw [Fine.exec_append, Option.bind_eq_some_iff] at h
    obtain ⟨s1, h1, h2⟩ := h
    simp only [Fine.exec, Option.bind_eq_some_iff] at h2
    obtain ⟨s2, h2, h3⟩ := h2
    cases h3
    have ih := ih h1
    have key : s.log = s1.log ∨ ∃ k o, s.log = s1.log ++ [(k, o)] ∧ ∀ r, o ≠ .other (.save r) := by
      unfold Fine.step at h2
      split at h2
      · cases h2
      · cases ev with
        | accept k => simp only at h2; split at h2 <;> cases h2; exact .inl rfl
        | deliver k b =>
          simp only [Option.bind_eq_some_iff] at h2
          obtain ⟨c, _, h2⟩ := h2
          split at h2 <;> cases h2; exact .inl rfl
        | hangup k b =>
          simp only [Option.bind_eq_some_iff] at h2
          obtain ⟨c, _, h2⟩ := h2
          split at h2 <;> cases h2; exact .inl rfl
        | iterate k =>
          simp only [Option.bind_eq_some_iff] at h2
          obtain ⟨c, _, h2⟩ := h2
          split at h2
          · cases h2
          · simp only [Option.map_eq_some_iff] at h2
            obtain ⟨_, _, rfl⟩ := h2
            exact .inl rfl
        | effect k =>
          simp only [Option.bind_eq_some_iff] at h2
          obtain ⟨c, _, h2⟩ := h2
          split at h2
          · cases h2
            rename_i r i _
            obtain ⟨_, _, _, ⟨_, h⟩ | ⟨_, e, h⟩⟩ := Fine.offer_conns stores s1 k r i
            · exact .inl h
            · exact .inr ⟨k, _, h, fun _ h => by cases h⟩
          · split at h2
            · cases h2
            · cases h2; exact .inl rfl
            · cases h2; exact .inr ⟨k, _, rfl, fun _ h => by cases h⟩
            · cases h2
              rename_i hn _ _
              exact .inr ⟨k, _, rfl, fun r h => by cases h; exact hn _ rfl⟩
    rcases key with h | ⟨k, o, h, ho⟩
    · rw [h]; exact ih
    · rw [h]
      intro x hx r
      rcases List.mem_append.mp hx with hx | hx
      · exact ih x hx r
      · rw [List.mem_singleton.mp hx]; exact ho r

theorem saves_attempts {s : Fine W E} (h : ∀ x ∈ s.log, ∀ r, x.2 ≠ .other (.save r)) (k : Nat) :
    (s.attemptsOf k).map (·.1) = saves (s.doneBy k) := by
  unfold Fine.attemptsOf Fine.doneBy attempts saves
  have hl : ∀ x ∈ s.log.filter (fun x => x.1 = k), ∀ r, x.2 ≠ .other (.save r) := fun x hx => h x (List.mem_of_mem_filter hx)
  generalize s.log.filter _ = l at hl
  induction l with
  | nil => rfl
  | cons x l ih =>
    have ih := ih fun x hx => hl x (List.mem_cons_of_mem _ hx)
    have hx := hl x (by simp)
    obtain ⟨j, o⟩ := x
    cases o with
    | saved r e => simpa [Outcome.effect] using ih
    | other x =>
      cases x with
      | save r => exact absurd rfl (hx r)
      | _ => simpa [Outcome.effect] using ih

/-- If the storages accept everything, what is saved is offered to all of them. -/
theorem Fine.offers_accepted_current {env : Env} {ce : Nat → ConnEnv} {stores : List (Saver W E)} (hok : ∀ st ∈ stores, ∀ r w, (st r w).2 = none)
    {w : W} {evs : List Event} {s : Fine W E} (h : Fine.exec env ce stores { world := w } evs = some s) (k : Nat) :
    s.offersOf k = (saves (s.doneBy k)).flatMap (acceptedUpTo · stores.length) ++ s.current k := by
  obtain ⟨hv, ho⟩ := Fine.exec_offers h
  obtain ⟨⟨chunks, h1, h2⟩, _⟩ := ho k
  rw [← saves_attempts (Fine.log_saves h), h2]
  congr 1
  have hn : ∀ x ∈ chunks.flatten, x.2.2 = none := by
    intro x hx
    have hx : x ∈ s.offersOf k := by rw [h2]; exact List.mem_append_left _ hx
    unfold Fine.offersOf at hx
    obtain ⟨y, hy, rfl⟩ := List.mem_map.mp hx
    exact hv.answers hok y (List.mem_of_mem_filter hy)
  generalize s.attemptsOf k = as at h1
  clear h2
  induction h1 with
  | nil => rfl
  | @cons ch a chunks as h _ ih =>
    obtain ⟨r, e⟩ := a
    have : ch = acceptedUpTo r stores.length := by
      cases e with
      | none => exact h
      | some e =>
        obtain ⟨i, _, h⟩ := h
        have := hn (r, i, some e) (by simp [h])
        cases this
    rw [List.flatten_cons, List.map_cons, List.flatMap_cons, ← this, ih fun x hx => hn x (by simp only [List.flatten_cons, List.mem_append]; exact .inr hx)]

theorem Fine.offers_accepted {env : Env} {ce : Nat → ConnEnv} {stores : List (Saver W E)} (hok : ∀ st ∈ stores, ∀ r w, (st r w).2 = none) {w : W}
    {evs : List Event} {s : Fine W E} (h : Fine.exec env ce stores { world := w } evs = some s) (k : Nat) (hs : s.saving k = none) :
    s.offersOf k = (saves (s.doneBy k)).flatMap (acceptedUpTo · stores.length) := by
  rw [Fine.offers_accepted_current hok h k, Fine.current, hs]
  simp

end Egts
