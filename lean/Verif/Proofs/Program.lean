import Verif.Spec.Program
import Verif.Props.Cli
import Verif.Props.Main
import Verif.Props.Run
import Verif.Props.Fine

/-! # Lemmas about the whole receiver -/

namespace Egts

variable {W E : Type}

/-- What happens to the accept loop in a history. -/
def onSrv (evs : List ProgEvent) : List SrvEvent := evs.filterMap fun
  | .listen ok => some (.run ok)
  | .acceptFails => some (.accept none)
  | .conn (.accept k) => some (.accept (some k))
  | .conn _ => none

theorem Program.step_srv {env : Env} {ce : Nat → ConnEnv} {stores : List (Saver W E)} {p q : Program W E} {ev : ProgEvent}
    (h : p.step env ce stores ev = some q) : p.srv.exec (onSrv [ev]) = some q.srv ∧ Fine.exec env ce stores p.sys (onConns [ev]) = some q.sys ∧
      q.addr = p.addr := by
  cases ev with
  | listen ok =>
    simp only [Program.step, Option.map_eq_some_iff] at h
    obtain ⟨v, hv, rfl⟩ := h
    simp [onSrv, onConns, Srv.exec, Fine.exec, hv]
  | acceptFails =>
    simp only [Program.step] at h
    split at h
    · cases h
    · simp only [Option.map_eq_some_iff] at h
      obtain ⟨v, hv, rfl⟩ := h
      simp [onSrv, onConns, Srv.exec, Fine.exec, hv]
  | conn ev =>
    cases ev with
    | accept k =>
      simp only [Program.step, Option.bind_eq_some_iff, Option.map_eq_some_iff] at h
      obtain ⟨v, hv, s, hs, rfl⟩ := h
      simp [onSrv, onConns, Srv.exec, Fine.exec, hv, hs]
    | _ =>
      simp only [Program.step] at h
      split at h
      · cases h
      · simp only [Option.map_eq_some_iff] at h
        obtain ⟨s, hs, rfl⟩ := h
        simp [onSrv, onConns, Srv.exec, Fine.exec, hs]

theorem Program.exec_parts {env : Env} {ce : Nat → ConnEnv} {stores : List (Saver W E)} {evs : List ProgEvent} {p q : Program W E}
    (h : p.exec env ce stores evs = some q) : p.srv.exec (onSrv evs) = some q.srv ∧ Fine.exec env ce stores p.sys (onConns evs) = some q.sys ∧
      q.addr = p.addr := by
  induction evs generalizing p with
  | nil => cases h; exact ⟨rfl, rfl, rfl⟩
  | cons ev evs ih =>
    simp only [Program.exec, Option.bind_eq_some_iff] at h
    obtain ⟨r, hr, h⟩ := h
    obtain ⟨a1, a2, a3⟩ := step_srv hr
    obtain ⟨b1, b2, b3⟩ := ih h
    have e1 : onSrv (ev :: evs) = onSrv [ev] ++ onSrv evs := by
      unfold onSrv; rw [← List.filterMap_append]; rfl
    have e2 : onConns (ev :: evs) = onConns [ev] ++ onConns evs := by
      unfold onConns; rw [← List.filterMap_append]; rfl
    rw [e1, e2, Srv.exec_append, Fine.exec_append, a1, a2]
    exact ⟨b1, b2, b3.trans a3⟩

theorem Program.exec_append {env : Env} {ce : Nat → ConnEnv} {stores : List (Saver W E)} {a b : List ProgEvent} {p : Program W E} :
    p.exec env ce stores (a ++ b) = (p.exec env ce stores a).bind fun q => q.exec env ce stores b := by
  induction a generalizing p with
  | nil => rfl
  | cons ev a ih =>
    simp only [List.cons_append, Program.exec]
    cases p.step env ce stores ev with
    | none => rfl
    | some q => exact ih

/-- Steps of handlers are steps of the process. -/
theorem Program.exec_conns {env : Env} {ce : Nat → ConnEnv} {stores : List (Saver W E)} {k : Nat} {evs : List Event}
    (hev : ∀ ev ∈ evs, ev = .iterate k ∨ ev = .effect k) {p : Program W E} {s : Fine W E} (hp : p.srv.phase = .accepting)
    (h : Fine.exec env ce stores p.sys evs = some s) : p.exec env ce stores (evs.map .conn) = some { p with sys := s } := by
  induction evs generalizing p with
  | nil => cases h; rfl
  | cons ev evs ih =>
    simp only [Fine.exec, Option.bind_eq_some_iff] at h
    obtain ⟨s', hs', h⟩ := h
    have hst : p.step env ce stores (.conn ev) = some { p with sys := s' } := by
      rcases hev ev (by simp) with rfl | rfl <;> simp [Program.step, hp, hs']
    simp only [List.map_cons, Program.exec, hst, Option.bind_some]
    exact ih (fun e he => hev e (by simp [he])) (p := { p with sys := s' }) hp h

theorem acceptedOf_eq (evs : List ProgEvent) : acceptedOf evs = acceptedIn (onSrv evs) := by
  induction evs with
  | nil => rfl
  | cons ev evs ih =>
    unfold acceptedOf onSrv at *
    cases ev with
    | conn ev => cases ev <;> simp [acceptedIn, ih]
    | _ => simp [acceptedIn, ih]

/-! ## Loading -/

theorem succeed_of_ok {lib : Lib W E} (hok : ∀ c w, (lib c w).2 = none) (calls : List Call) (w : W) : Succeed lib calls w := by
  induction calls generalizing w with
  | nil => trivial
  | cons c cs ih => exact ⟨hok c w, ih _⟩

theorem loadLoop_all {lib : Lib W E} (hok : ∀ c w, (lib c w).2 = none) (cfg : List (Bytes × Params))
    (hc : ∀ x ∈ cfg, x.1 ∈ storageNames ∧ ∃ c, x.2 = some c ∧ Usable x.1 c) (stores : List (Saver W (ConnErr E))) (w : W) :
    ∃ stores' w', loadLoop (connectors lib) stores w cfg = (stores', w', none) := by
  induction cfg generalizing stores w with
  | nil => exact ⟨_, _, rfl⟩
  | cons x cfg ih =>
    obtain ⟨name, p⟩ := x
    obtain ⟨hn, c, hp, hu⟩ := hc (name, p) (by simp)
    obtain ⟨calls, _, hi⟩ := C70_starts_iff lib name hn c
    have h0 := (hi w).1.mpr ⟨hu, succeed_of_ok hok calls w⟩
    simp only at hp
    subst hp
    have hs : name ∈ supportedNames := hn
    simp only [loadLoop, hs, if_true]
    rcases hin : (connectors lib).init name (some c) w with ⟨w', e⟩
    rw [hin] at h0
    simp only at h0
    subst h0
    exact ih (fun x hx => hc x (by simp [hx])) _ _

theorem loadStorages_ok {lib : Lib W E} (hok : ∀ c w, (lib c w).2 = none) (cfg : List (Bytes × Params)) (hne : cfg ≠ [])
    (hc : ∀ x ∈ cfg, x.1 ∈ storageNames ∧ ∃ c, x.2 = some c ∧ Usable x.1 c) (w : W) :
    ∃ stores w', loadStorages (connectors lib) [] w cfg = (stores, w', none) := by
  unfold loadStorages
  rw [if_neg (by simpa using hne)]
  exact loadLoop_all hok cfg hc [] w

theorem recorder_ok {lib : Lib W E} (hok : ∀ c w, (lib c w).2 = none) : ∀ c w, (recorder lib c w).2 = none := fun c w => hok c w.1

/-! ## Starting -/

theorem lastValue_none {opts : List (Bytes × Bytes)} (hv : ∀ x ∈ opts, x.1 = go!"c") (h : lastValue opts (go!"c") = none) : opts = [] := by
  unfold lastValue at h
  simp only [Option.map_eq_none_iff, List.getLast?_eq_none_iff, List.filter_eq_nil_iff, decide_eq_true_eq] at h
  cases opts with
  | nil => rfl
  | cons x l => exact absurd (hv x (by simp)) (h x (by simp))

theorem usableFile_iff (doc : Yaml) : UsableFile doc ↔ (configNew (some doc)).isSome := by
  cases doc with
  | null t => exact iff_of_true (.inl ⟨t, rfl⟩) rfl
  | int n t => exact iff_of_false (by rintro (⟨_, h⟩ | ⟨_, h, _⟩) <;> cases h) (by simp [configNew])
  | float q t => exact iff_of_false (by rintro (⟨_, h⟩ | ⟨_, h, _⟩) <;> cases h) (by simp [configNew])
  | str s => exact iff_of_false (by rintro (⟨_, h⟩ | ⟨_, h, _⟩) <;> cases h) (by simp [configNew])
  | other s => exact iff_of_false (by rintro (⟨_, h⟩ | ⟨_, h, _⟩) <;> cases h) (by simp [configNew])
  | seq => exact iff_of_false (by rintro (⟨_, h⟩ | ⟨_, h, _⟩) <;> cases h) (by simp [configNew])
  | map ms =>
    rw [C72_accepts_iff]
    constructor
    · rintro (⟨_, h⟩ | ⟨_, h, h'⟩)
      · cases h
      · cases h; exact h'
    · exact fun h => .inr ⟨ms, rfl, h⟩

/-- What the receiver does, given its command line and its configuration file. -/
theorem receiverCli_started (lib : Lib W E) (order : List (Bytes × Params) → List (Bytes × Params)) (fs : Bytes → Option Yaml)
    {argv : List Bytes} {path : Bytes} (hn : NamesFile argv path) {s : Settings} (hs : configNew (fs path) = some s) (w : W) :
    receiverCli lib order fs argv w = .main (.run s.listenAddress s.emptyConnTTL
      (mainStorages (connectors lib) (logConnectorSave lib s.level) w (order s.store)).1
      (mainStorages (connectors lib) (logConnectorSave lib s.level) w (order s.store)).2) := by
  obtain ⟨hp, opts, h1, h2, h3⟩ := hn
  rw [C85_file lib order fs w h1 h2, h3]
  simp only [Option.getD_some, receiverMain, if_neg hp, hs]

theorem receiverCli_run {lib : Lib W E} {order : List (Bytes × Params) → List (Bytes × Params)} {fs : Bytes → Option Yaml}
    {argv : List Bytes} {w w' : W} {addr : Bytes} {ttl : Int} {stores : List (Saver W (ConnErr E))}
    (h : receiverCli lib order fs argv w = .main (.run addr ttl stores w')) :
    ∃ path s, NamesFile argv path ∧ configNew (fs path) = some s := by
  by_cases ho : ∃ opts, CommandLine argv opts ∧ ∀ x ∈ opts, x.1 = go!"c"
  · obtain ⟨opts, h1, h2⟩ := ho
    rw [C85_file lib order fs w h1 h2] at h
    cases hl : lastValue opts (go!"c") with
    | none => rw [hl] at h; simp [receiverMain] at h
    | some path =>
      rw [hl] at h
      simp only [Option.getD_some, receiverMain] at h
      split at h
      · simp at h
      · rename_i hp
        cases hc : configNew (fs path) with
        | none => rw [hc] at h; simp at h
        | some s => exact ⟨path, s, ⟨hp, opts, h1, h2, hl⟩, hc⟩
  · rcases C85_refused lib order fs w argv ho with ⟨_, e⟩ | ⟨_, e⟩ <;> rw [e] at h <;> cases h

/-- A history of the receiver is nothing, or one of a started receiver. -/
theorem receiverRun_cases {lib : Lib W E} {order : List (Bytes × Params) → List (Bytes × Params)} {fs : Bytes → Option Yaml}
    {env : Env} {ce : Nat → ConnEnv} {argv : List Bytes} {w : W} {evs : List ProgEvent} {p : Program W (ConnErr E)}
    (h : receiverRun lib order fs env ce argv w evs = some p) :
    (evs = [] ∧ p.srv.phase = .exited ∧ p.srv.started = [] ∧ p.sys = { world := w }) ∨
    ∃ addr ttl stores w', receiverCli lib order fs argv w = .main (.run addr ttl stores w') ∧
      Program.exec env ce stores { addr := addr, sys := { world := w' } } evs = some p := by
  unfold receiverRun at h
  split at h
  · rename_i addr ttl stores w' hc
    exact .inr ⟨addr, ttl, stores, w', hc, h⟩
  · split at h
    · cases h; exact .inl ⟨‹_›, rfl, rfl, rfl⟩
    · cases h

/-! ## The accept loop -/

theorem Program.exec_exited {env : Env} {ce : Nat → ConnEnv} {stores : List (Saver W E)} {evs : List ProgEvent} {p q : Program W E}
    (hp : p.srv.phase = .exited) (h : p.exec env ce stores evs = some q) : evs = [] := by
  cases evs with
  | nil => rfl
  | cons ev evs =>
    simp only [Program.exec, Option.bind_eq_some_iff] at h
    obtain ⟨r, hr, _⟩ := h
    cases ev with
    | listen ok => simp [Program.step, Srv.step, hp] at hr
    | acceptFails => simp [Program.step, Srv.step, hp] at hr
    | conn ev => cases ev <;> simp [Program.step, Srv.step, hp] at hr

theorem Program.exec_accepting {env : Env} {ce : Nat → ConnEnv} {stores : List (Saver W E)} {evs : List ProgEvent} {p q : Program W E}
    (hp : p.srv.phase = .accepting) (h : p.exec env ce stores evs = some q) : (∀ ok, .listen ok ∉ evs) ∧ q.srv.phase = .accepting := by
  induction evs generalizing p with
  | nil => cases h; exact ⟨by simp, hp⟩
  | cons ev evs ih =>
    simp only [Program.exec, Option.bind_eq_some_iff] at h
    obtain ⟨r, hr, h⟩ := h
    have hr' := (step_srv hr).1
    have hph : (∀ ok, ev ≠ .listen ok) ∧ r.srv.phase = .accepting := by
      cases ev with
      | listen ok => simp [Program.step, Srv.step, hp] at hr
      | acceptFails =>
        have hx : p.srv.step (.accept none) = some r.srv := by simpa [onSrv, Srv.exec] using hr'
        obtain ⟨_, _, e⟩ := Srv.step_accept hx
        exact ⟨by simp, by rw [e]; exact hp⟩
      | conn ev =>
        refine ⟨by simp, ?_⟩
        cases ev with
        | accept k =>
          have hx : p.srv.step (.accept (some k)) = some r.srv := by simpa [onSrv, Srv.exec] using hr'
          obtain ⟨_, _, e⟩ := Srv.step_accept hx
          rw [e]; exact hp
        | _ =>
          have hx : p.srv = r.srv := by simpa [onSrv, Srv.exec] using hr'
          rw [← hx]; exact hp
    obtain ⟨i1, i2⟩ := ih hph.2 h
    refine ⟨fun ok hm => ?_, i2⟩
    rcases List.mem_cons.mp hm with hm | hm
    · exact hph.1 ok hm.symm
    · exact i1 ok hm

theorem Program.exec_shape {env : Env} {ce : Nat → ConnEnv} {stores : List (Saver W E)} {evs : List ProgEvent} {p q : Program W E}
    (hp : p.srv = {}) (h : p.exec env ce stores evs = some q) :
    evs = [] ∨ evs = [.listen false] ∨ ∃ rest, evs = .listen true :: rest ∧ (∀ ok, .listen ok ∉ rest) ∧ q.srv.phase = .accepting := by
  cases evs with
  | nil => exact .inl rfl
  | cons ev evs =>
    simp only [Program.exec, Option.bind_eq_some_iff] at h
    obtain ⟨r, hr, h⟩ := h
    right
    cases ev with
    | listen ok =>
      simp only [Program.step, Srv.step, hp, Option.map_eq_some_iff] at hr
      obtain ⟨v, hv, rfl⟩ := hr
      cases ok with
      | false =>
        cases hv
        rw [exec_exited rfl h]
        exact .inl rfl
      | true =>
        cases hv
        obtain ⟨a, b⟩ := exec_accepting rfl h
        exact .inr ⟨evs, rfl, a, b⟩
    | acceptFails => simp [Program.step, Srv.step, hp] at hr
    | conn ev => cases ev <;> simp [Program.step, Srv.step, hp] at hr

/-! ## Connections -/

theorem Fine.step_conns {env : Env} {ce : Nat → ConnEnv} {stores : List (Saver W E)} {s s' : Fine W E} {ev : Event}
    (h : s.step env ce stores ev = some s') (k : Nat) :
    ((s'.conns k).isSome ↔ (s.conns k).isSome ∨ ev = .accept k) ∧ (ev = .accept k → s.conns k = none) := by
  unfold Fine.step at h
  split at h
  · cases h
  · have hset : ∀ (t : Fine W E) j c, t.conns = s.conns → (s.conns j).isSome → (((t.set j c).conns k).isSome ↔ (s.conns k).isSome) := by
      intro t j c ht hj
      simp only [Fine.set, ht]
      by_cases hkj : k = j
      · subst hkj; simp [hj]
      · simp [hkj]
    cases ev with
    | accept j =>
      simp only at h
      split at h
      · cases h
      · cases h
        rename_i hj
        simp only [Fine.set, Event.accept.injEq]
        by_cases hkj : k = j
        · subst hkj
          simpa using hj
        · simp [hkj, Ne.symm hkj]
    | deliver j b =>
      simp only [Option.bind_eq_some_iff] at h
      obtain ⟨c, hc, h⟩ := h
      split at h
      · cases h
        simp [hset s j _ rfl (by simp [hc])]
      · cases h
    | hangup j e =>
      simp only [Option.bind_eq_some_iff] at h
      obtain ⟨c, hc, h⟩ := h
      split at h
      · cases h
        simp [hset s j _ rfl (by simp [hc])]
      · cases h
    | iterate j =>
      simp only [Option.bind_eq_some_iff] at h
      obtain ⟨c, hc, h⟩ := h
      split at h
      · cases h
      · simp only [Option.map_eq_some_iff] at h
        obtain ⟨c', _, rfl⟩ := h
        simp [hset s j _ rfl (by simp [hc])]
    | effect j =>
      simp only [Option.bind_eq_some_iff] at h
      obtain ⟨c, hc, h⟩ := h
      have hj : (s.conns j).isSome := by simp [hc]
      split at h
      · cases h
        simp [(Fine.offer_conns stores s j _ _).1]
      · split at h
        · cases h
        · cases h
          simp [hset (s.setSaving j _) j _ rfl hj]
        · cases h
          exact ⟨by simpa using hset (s.note j _) j _ rfl hj, fun h => by cases h⟩
        · cases h
          simp [hset (s.note j _) j _ rfl hj]

theorem Fine.exec_conns_iff {env : Env} {ce : Nat → ConnEnv} {stores : List (Saver W E)} {evs : List Event} {s s' : Fine W E}
    (h : Fine.exec env ce stores s evs = some s') :
    (∀ k, (s'.conns k).isSome ↔ (s.conns k).isSome ∨ .accept k ∈ evs) ∧ (evs.filterMap fun | .accept k => some k | _ => none).Nodup ∧
      ∀ k, .accept k ∈ evs → s.conns k = none := by
  induction evs generalizing s with
  | nil => cases h; simp
  | cons ev evs ih =>
    simp only [Fine.exec, Option.bind_eq_some_iff] at h
    obtain ⟨r, hr, h⟩ := h
    obtain ⟨i1, i2, i3⟩ := ih h
    have hst := Fine.step_conns hr
    refine ⟨fun k => ?_, ?_, fun k hk => ?_⟩
    · rw [i1 k, (hst k).1, List.mem_cons, or_assoc, @eq_comm _ ev]
    · cases ev with
      | accept k =>
        refine List.nodup_cons.mpr ⟨fun hm => ?_, i2⟩
        obtain ⟨e, he, hek⟩ := List.mem_filterMap.mp hm
        cases e with
        | accept j =>
          cases hek
          have h1 := i3 k he
          have h2 := (hst k).1.mpr (.inr rfl)
          rw [h1] at h2
          cases h2
        | _ => cases hek
      | _ => exact i2
    · rcases List.mem_cons.mp hk with hk | hk
      · exact (hst k).2 hk.symm
      · have h1 := i3 k hk
        cases hs : s.conns k with
        | none => rfl
        | some c =>
          have := (hst k).1.mpr (.inl (by simp [hs]))
          rw [h1] at this
          cases this

theorem acceptedOf_conns (evs : List ProgEvent) : acceptedOf evs = (onConns evs).filterMap fun | .accept k => some k | _ => none := by
  unfold acceptedOf onConns
  rw [List.filterMap_filterMap]
  congr 1
  funext ev
  cases ev with
  | conn ev => cases ev <;> rfl
  | _ => rfl

theorem mem_acceptedOf (evs : List ProgEvent) (k : Nat) : k ∈ acceptedOf evs ↔ .accept k ∈ onConns evs := by
  rw [acceptedOf_conns, List.mem_filterMap]
  constructor
  · rintro ⟨e, he, h⟩
    cases e with
    | accept j => cases h; exact he
    | _ => cases h
  · exact fun h => ⟨_, h, rfl⟩

end Egts
