import Verif.Props.Acked
import Verif.Spec.Live

/-! # Lemmas: how many steps the goroutine of a connection makes -/

namespace Egts

variable {W E : Type}

/-- The steps of a goroutine in a history of the connections. -/
def iterates (k : Nat) (evs : List Event) : Nat := evs.count (.iterate k)
def effects (k : Nat) (evs : List Event) : Nat := evs.count (.effect k)

/-- Steps made in the save in progress. -/
def Fine.within (s : Fine W E) (k : Nat) : Nat :=
  match s.saving k with
  | some (_, i) => i + 1
  | none => 0

structure Fine.Counted (n k : Nat) (evs : List Event) (s : Fine W E) : Prop where
  iter : iterates k evs ≤ ((s.conns k).getD {}).count + (if ((s.conns k).getD {}).done then 1 else 0)
  bytes : 10 * ((s.conns k).getD {}).count + ((s.conns k).getD {}).buf.length ≤ (receivedOn k evs).length
  eff : effects k evs ≤ (n + 2) * (s.doneBy k).length + s.within k
  le : ∀ r i, s.saving k = some (r, i) → i ≤ n

theorem iterate_counts {env : Env} {ce : ConnEnv} {c c' : ConnState} (h : c.iterate env ce = some c') :
    c.count + (if c.done then 1 else 0) + 1 ≤ c'.count + (if c'.done then 1 else 0) ∧
    10 * c'.count + c'.buf.length ≤ 10 * c.count + c.buf.length := by
  unfold ConnState.iterate at h
  split at h
  · cases h
  · rename_i hp
    simp only [not_or, Bool.not_eq_true] at hp
    split at h
    · cases h
    · cases h
      simp [hp.2]
    · rename_i b rest hr
      obtain ⟨hw, he⟩ := readPacket_packet hr
      have := hw.2.1
      have hl := congrArg List.length he
      rw [List.length_append] at hl
      simp only at h
      split at h
      · cases h
        simp only [hp.2]
        refine ⟨by simp, ?_⟩
        omega
      · cases h
        simp only [hp.2]
        refine ⟨by simp, ?_⟩
        omega

theorem Fine.counted_congr {n k : Nat} {evs evs' : List Event} {s s' : Fine W E} (h : s.Counted n k evs) (h1 : s'.conns k = s.conns k)
    (h2 : s'.saving k = s.saving k) (h3 : s'.doneBy k = s.doneBy k) (h4 : iterates k evs' = iterates k evs)
    (h5 : effects k evs' = effects k evs) (h6 : receivedOn k evs' = receivedOn k evs) : s'.Counted n k evs' := by
  obtain ⟨a, b, c, d⟩ := h
  have hwi : s'.within k = s.within k := by unfold Fine.within; rw [h2]
  exact ⟨by rw [h1, h4]; exact a, by rw [h1, h6]; exact b, by rw [h5, h3, hwi]; exact c, by rw [h2]; exact d⟩

theorem doneBy_note (s : Fine W E) (k j : Nat) (o : Outcome E) : (s.note k o).doneBy j = s.doneBy j ++ (if k = j then [o.effect] else []) := by
  unfold Fine.doneBy Fine.note
  by_cases h : k = j
  · simp [h, List.filter_append]
  · simp [h, List.filter_append]

theorem Fine.counted_step {env : Env} {ce : Nat → ConnEnv} {stores : List (Saver W E)} {s s' : Fine W E} {ev : Event} {evs : List Event} {k : Nat}
    (h : s.step env ce stores ev = some s') (hc : s.Counted stores.length k evs) : s'.Counted stores.length k (evs ++ [ev]) := by
  unfold Fine.step at h
  split at h
  · cases h
  · cases ev with
    | accept j =>
      simp only at h
      split at h
      · cases h
      · rename_i hn
        cases h
        obtain ⟨a, b, c, d⟩ := hc
        by_cases hj : k = j
        · subst hj
          have h0 : s.conns k = none := by simpa using hn
          rw [h0] at a b
          refine ⟨?_, ?_, ?_, d⟩
          · simpa [iterates, Fine.set, List.count_append] using a
          · simp [receivedOn_append, Fine.set]
          · simpa [effects, Fine.set, Fine.within, List.count_append, Fine.doneBy] using c
        · refine Fine.counted_congr ⟨a, b, c, d⟩ (if_neg hj) rfl rfl ?_ ?_ ?_ <;> simp [iterates, effects, List.count_append, receivedOn]
    | deliver j b =>
      simp only [Option.bind_eq_some_iff] at h
      obtain ⟨c0, hc0, h⟩ := h
      split at h
      · cases h
        obtain ⟨a, b, c, d⟩ := hc
        by_cases hj : k = j
        · subst hj
          rw [hc0] at a b
          refine ⟨?_, ?_, ?_, d⟩
          · simpa [iterates, Fine.set, List.count_append] using a
          · simp only [Option.getD_some] at b
            simp [Fine.set, receivedOn] at *
            omega
          · simpa [effects, Fine.set, Fine.within, List.count_append, Fine.doneBy] using c
        · refine Fine.counted_congr ⟨a, b, c, d⟩ (if_neg hj) rfl rfl ?_ ?_ ?_ <;>
            simp [iterates, effects, List.count_append, receivedOn, Ne.symm hj]
      · cases h
    | hangup j b =>
      simp only [Option.bind_eq_some_iff] at h
      obtain ⟨c0, hc0, h⟩ := h
      split at h
      · cases h
        obtain ⟨a, b, c, d⟩ := hc
        by_cases hj : k = j
        · subst hj
          rw [hc0] at a b
          refine ⟨?_, ?_, ?_, d⟩
          · simpa [iterates, Fine.set, List.count_append] using a
          · simpa [receivedOn_append, Fine.set, receivedOn] using b
          · simpa [effects, Fine.set, Fine.within, List.count_append, Fine.doneBy] using c
        · refine Fine.counted_congr ⟨a, b, c, d⟩ (if_neg hj) rfl rfl ?_ ?_ ?_ <;>
            simp [iterates, effects, List.count_append, receivedOn]
      · cases h
    | iterate j =>
      simp only [Option.bind_eq_some_iff] at h
      obtain ⟨c0, hc0, h⟩ := h
      split at h
      · cases h
      · simp only [Option.map_eq_some_iff] at h
        obtain ⟨c', hi, rfl⟩ := h
        obtain ⟨a, b, c, d⟩ := hc
        by_cases hj : k = j
        · subst hj
          obtain ⟨i1, i2⟩ := iterate_counts hi
          rw [hc0] at a b
          simp only [Option.getD_some] at a b
          have hset : ((s.set k c').conns k).getD {} = c' := by simp [Fine.set]
          refine ⟨?_, ?_, ?_, d⟩
          · rw [hset]
            simp only [iterates, List.count_append, List.count_singleton] at *
            simp only [BEq.rfl, if_true]
            omega
          · rw [hset]
            simp [receivedOn] at *
            omega
          · simpa [effects, Fine.set, Fine.within, List.count_append, Fine.doneBy] using c
        · refine Fine.counted_congr ⟨a, b, c, d⟩ (if_neg hj) rfl rfl ?_ ?_ ?_ <;>
            simp [iterates, effects, List.count_append, receivedOn, Ne.symm hj]
    | effect j =>
      simp only [Option.bind_eq_some_iff] at h
      obtain ⟨c0, hc0, h⟩ := h
      have ei : iterates k (evs ++ [.effect j]) = iterates k evs := by simp [iterates, List.count_append]
      have er : receivedOn k (evs ++ [.effect j]) = receivedOn k evs := by simp [receivedOn]
      by_cases hj : k = j
      · subst hj
        have ee : effects k (evs ++ [.effect k]) = effects k evs + 1 := by simp [effects, List.count_append]
        have key : ∀ t : Fine W E, (t.conns k).getD {} = { (s.conns k).getD {} with pending := ((t.conns k).getD {}).pending } →
            effects k evs + 1 ≤ (stores.length + 2) * (t.doneBy k).length + t.within k → (∀ r i, t.saving k = some (r, i) → i ≤ stores.length) →
            t.Counted stores.length k (evs ++ [.effect k]) := by
          intro t h1 h2 h3
          obtain ⟨a, b, c, d⟩ := hc
          exact ⟨by rw [h1, ei]; exact a, by rw [h1, er]; exact b, by rw [ee]; exact h2, h3⟩
        obtain ⟨_, _, c, d⟩ := hc
        split at h
        · rename_i r i hs
          have hle := d r i hs
          cases h
          have hw : s.within k = i + 1 := by simp [Fine.within, hs]
          rw [hw] at c
          unfold Fine.offer
          split
          · refine key _ rfl ?_ ?_
            · have : ((s.note k (.saved r none)).setSaving k none).doneBy k = s.doneBy k ++ [.save r] := by
                show (s.note k (.saved r none)).doneBy k = _
                rw [doneBy_note, if_pos rfl]; rfl
              rw [this, List.length_append, Nat.mul_add]
              simp only [List.length_singleton]
              omega
            · intro r i h
              simp [Fine.setSaving] at h
          · rename_i st hi
            have hlt : i < stores.length := (List.getElem?_eq_some_iff.mp hi).1
            rcases hst : st r s.world with ⟨w1, e⟩
            cases e with
            | none =>
              refine key _ rfl ?_ ?_
              · have : (({ s with world := w1, offers := s.offers ++ [(k, r, i, none)] } : Fine W E).setSaving k (some (r, i + 1))).within k = i + 2 := by
                  simp [Fine.within, Fine.setSaving]
                simp only
                rw [this]
                show _ ≤ _ * (s.doneBy k).length + _
                omega
              · intro r' i' h
                simp [Fine.setSaving] at h
                omega
            | some e =>
              refine key _ rfl ?_ ?_
              · have : ((({ s with world := w1, offers := s.offers ++ [(k, r, i, some e)] } : Fine W E).note k (.saved r (some e))).setSaving k none).doneBy k =
                    s.doneBy k ++ [.save r] := by
                  show (({ s with world := w1, offers := s.offers ++ [(k, r, i, some e)] } : Fine W E).note k (.saved r (some e))).doneBy k = _
                  rw [doneBy_note, if_pos rfl]; rfl
                simp only
                rw [this, List.length_append, Nat.mul_add]
                simp only [List.length_singleton]
                omega
              · intro r i h
                simp [Fine.setSaving] at h
        · rename_i hs
          have hw : s.within k = 0 := by simp [Fine.within, hs]
          rw [hw] at c
          have hgen : ∀ (x : Effect) (rest : List Effect) (cr : Bool),
              ({ (s.note k (.other x)).set k { c0 with pending := rest } with crashed := cr } : Fine W E).Counted stores.length k (evs ++ [.effect k]) := by
            intro x rest cr
            refine key _ ?_ ?_ ?_
            · simp [Fine.set, hc0]
            · have : ({ (s.note k (.other x)).set k { c0 with pending := rest } with crashed := cr } : Fine W E).doneBy k =
                  s.doneBy k ++ [(Outcome.other (E := E) x).effect] := by
                show (s.note k (.other x)).doneBy k = _
                rw [doneBy_note, if_pos rfl]
              rw [this, List.length_append, Nat.mul_add]
              simp only [List.length_singleton]
              omega
            · intro r i h
              have : s.saving k = some (r, i) := h
              rw [hs] at this
              cases this
          split at h
          · cases h
          · rename_i r rest _
            cases h
            refine key _ ?_ ?_ ?_
            · simp [Fine.set, Fine.setSaving, hc0]
            · have : ((s.setSaving k (some (r, 0))).set k { c0 with pending := rest }).within k = 1 := by
                simp [Fine.within, Fine.setSaving, Fine.set]
              rw [this]
              show _ ≤ _ * (s.doneBy k).length + _
              omega
            · intro r' i' h
              simp [Fine.setSaving, Fine.set] at h
              omega
          · cases h; exact hgen .crash _ true
          · cases h; exact hgen _ _ s.crashed
      · have ee : effects k (evs ++ [.effect j]) = effects k evs := by simp [effects, List.count_append, Ne.symm hj]
        have hd : ∀ o, (s.note j o).doneBy k = s.doneBy k := fun o => by rw [doneBy_note, if_neg (Ne.symm hj), List.append_nil]
        split at h
        · rename_i r i hs
          cases h
          unfold Fine.offer
          split
          · exact Fine.counted_congr hc rfl (if_neg hj) (hd _) ei ee er
          · rename_i st hi
            rcases hst : st r s.world with ⟨w1, e⟩
            cases e with
            | none => exact Fine.counted_congr hc rfl (if_neg hj) rfl ei ee er
            | some e => exact Fine.counted_congr hc rfl (if_neg hj) (hd (.saved r (some e))) ei ee er
        · split at h
          · cases h
          · cases h; exact Fine.counted_congr hc (if_neg hj) (if_neg hj) rfl ei ee er
          · cases h; exact Fine.counted_congr hc (if_neg hj) rfl (hd _) ei ee er
          · cases h; exact Fine.counted_congr hc (if_neg hj) rfl (hd _) ei ee er

theorem Fine.counted {env : Env} {ce : Nat → ConnEnv} {stores : List (Saver W E)} {w : W} {evs : List Event} {s : Fine W E}
    (h : Fine.exec env ce stores { world := w } evs = some s) (k : Nat) : s.Counted stores.length k evs := by
  induction evs using List.reverseRecOn generalizing s with
  | nil => cases h; exact ⟨by simp [iterates], by simp, by simp [effects], by simp⟩
  | append_singleton evs ev ih =>
    rw [Fine.exec_append, Option.bind_eq_some_iff] at h
    obtain ⟨s1, h1, h2⟩ := h
    simp only [Fine.exec, Option.bind_eq_some_iff] at h2
    obtain ⟨s2, h2, h3⟩ := h2
    cases h3
    exact Fine.counted_step h2 (ih h1)

/-! ## What has happened stays -/

theorem Fine.step_grows {env : Env} {ce : Nat → ConnEnv} {stores : List (Saver W E)} {s s' : Fine W E} {ev : Event}
    (h : s.step env ce stores ev = some s') : s.log <+: s'.log ∧ s.offers <+: s'.offers := by
  unfold Fine.step at h
  split at h
  · cases h
  · cases ev with
    | accept k =>
      simp only at h
      split at h
      · cases h
      · cases h; exact ⟨List.prefix_rfl, List.prefix_rfl⟩
    | deliver k b =>
      simp only [Option.bind_eq_some_iff] at h
      obtain ⟨c, _, h⟩ := h
      split at h
      · cases h; exact ⟨List.prefix_rfl, List.prefix_rfl⟩
      · cases h
    | hangup k b =>
      simp only [Option.bind_eq_some_iff] at h
      obtain ⟨c, _, h⟩ := h
      split at h
      · cases h; exact ⟨List.prefix_rfl, List.prefix_rfl⟩
      · cases h
    | iterate k =>
      simp only [Option.bind_eq_some_iff] at h
      obtain ⟨c, _, h⟩ := h
      split at h
      · cases h
      · simp only [Option.map_eq_some_iff] at h
        obtain ⟨c', _, rfl⟩ := h
        exact ⟨List.prefix_rfl, List.prefix_rfl⟩
    | effect k =>
      simp only [Option.bind_eq_some_iff] at h
      obtain ⟨c, _, h⟩ := h
      split at h
      · rename_i r i _
        cases h
        unfold Fine.offer
        split
        · exact ⟨List.prefix_append _ _, List.prefix_rfl⟩
        · rename_i st _
          rcases hst : st r s.world with ⟨w1, e⟩
          cases e with
          | none => exact ⟨List.prefix_rfl, List.prefix_append _ _⟩
          | some e => exact ⟨List.prefix_append _ _, List.prefix_append _ _⟩
      · split at h
        · cases h
        · cases h; exact ⟨List.prefix_rfl, List.prefix_rfl⟩
        · cases h; exact ⟨List.prefix_append _ _, List.prefix_rfl⟩
        · cases h; exact ⟨List.prefix_append _ _, List.prefix_rfl⟩

theorem Fine.exec_grows {env : Env} {ce : Nat → ConnEnv} {stores : List (Saver W E)} {s s' : Fine W E} {evs : List Event}
    (h : Fine.exec env ce stores s evs = some s') : s.log <+: s'.log ∧ s.offers <+: s'.offers := by
  induction evs generalizing s with
  | nil => cases h; exact ⟨List.prefix_rfl, List.prefix_rfl⟩
  | cons ev evs ih =>
    simp only [Fine.exec, Option.bind_eq_some_iff] at h
    obtain ⟨s1, h1, h2⟩ := h
    obtain ⟨a, b⟩ := Fine.step_grows h1
    obtain ⟨c, d⟩ := ih h2
    exact ⟨a.trans c, b.trans d⟩

theorem Fine.doneBy_grows {env : Env} {ce : Nat → ConnEnv} {stores : List (Saver W E)} {s s' : Fine W E} {evs : List Event}
    (h : Fine.exec env ce stores s evs = some s') (k : Nat) : s.doneBy k <+: s'.doneBy k := by
  obtain ⟨t, ht⟩ := (Fine.exec_grows h).1
  unfold Fine.doneBy
  rw [← ht, List.filter_append, List.map_append]
  exact List.prefix_append _ _

/-! ## Infinite histories -/

theorem upTo_succ (f : Nat → ProgEvent) (n : Nat) : upTo f (n + 1) = upTo f n ++ [f n] := by
  simp [upTo, List.range_succ]

theorem upTo_le (f : Nat → ProgEvent) {m n : Nat} (h : m ≤ n) : ∃ more, upTo f n = upTo f m ++ more := by
  induction n with
  | zero =>
    obtain rfl : m = 0 := by omega
    exact ⟨[], by simp⟩
  | succ n ih =>
    by_cases hm : m ≤ n
    · obtain ⟨more, hmore⟩ := ih hm
      exact ⟨more ++ [f n], by rw [upTo_succ, hmore, List.append_assoc]⟩
    · obtain rfl : m = n + 1 := by omega
      exact ⟨[], by simp⟩

/-- A goroutine that can make only so many steps, and is treated fairly, has nothing to do again and again. -/
theorem idle_again {P : Type} {run : List ProgEvent → Option P} {k : Nat} {f : Nat → ProgEvent} (hfair : FairTo run k f) {N n0 : Nat}
    (hN : ∀ n ≥ n0, (upTo f n).countP (fun ev => IsStepOf k ev) ≤ N) (n : Nat) : ∃ m ≥ n, ¬ CanStep run k (upTo f m) := by
  by_contra hne
  push Not at hne
  have hinf : ∀ j, ∃ m ≥ n, j ≤ (upTo f m).countP (fun ev => IsStepOf k ev) := by
    intro j
    induction j with
    | zero => exact ⟨n, Nat.le_refl _, Nat.zero_le _⟩
    | succ j ih =>
      obtain ⟨m, h1, h2⟩ := ih
      obtain ⟨m', h3, h4⟩ := hfair m
      have h5 : IsStepOf k (f m') := h4.resolve_right fun h => h (hne m' (by omega))
      refine ⟨m' + 1, by omega, ?_⟩
      obtain ⟨more, hmore⟩ := upTo_le f h3
      rw [upTo_succ, List.countP_append, hmore, List.countP_append]
      simp only [List.countP_singleton, decide_eq_true_eq, h5, if_true]
      omega
  obtain ⟨m, h1, h2⟩ := hinf (N + 1)
  by_cases hm : n0 ≤ m
  · have := hN m hm
    omega
  · obtain ⟨more, hmore⟩ := upTo_le f (show m ≤ n0 by omega)
    have := hN n0 (Nat.le_refl _)
    rw [hmore, List.countP_append] at this
    omega

theorem steps_onConns (k : Nat) (evs : List ProgEvent) :
    evs.countP (fun ev => IsStepOf k ev) = iterates k (onConns evs) + effects k (onConns evs) := by
  induction evs with
  | nil => rfl
  | cons ev evs ih =>
    have e : onConns (ev :: evs) = onConns [ev] ++ onConns evs := by
      unfold onConns; rw [← List.filterMap_append]; rfl
    rw [e, List.countP_cons, ih]
    unfold iterates effects
    rw [List.count_append, List.count_append]
    cases ev with
    | conn ev =>
      cases ev <;> simp [onConns, IsStepOf, List.count_singleton]
      all_goals split <;> omega
    | _ => simp [onConns, IsStepOf]

end Egts
