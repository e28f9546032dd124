import Verif.Model.After
import Verif.Spec.After
import Verif.Proofs.PosWire
import Mathlib.Tactic.IntervalCases

/-! # Lemmas: what a subrecord holds after its `Decode` -/

namespace Egts
namespace Run
variable {S α β : Type}

/-- The result alone. -/
def outcome : EStateM.Result Err (S × Bytes) α → Except Err S
  | .ok _ s => .ok s.1
  | .error e _ => .error e

theorem after_ok (m : Run S Unit) (s d : S) (b : Bytes) : m.after s b = (d, none) ↔ outcome (m (s, b)) = .ok d := by
  unfold after outcome
  cases m (s, b) <;> simp

theorem after_err (m : Run S Unit) (s : S) (b : Bytes) (e : Err) : (m.after s b).2 = some e ↔ outcome (m (s, b)) = .error e := by
  unfold after outcome
  cases m (s, b) <;> simp

theorem sim_read {f : Bytes → Except Err (α × Bytes)} {g : α → Run S β} {h : α × Bytes → Except Err S} {s : S} {r : Bytes}
    (hk : ∀ a r', f r = .ok (a, r') → outcome (g a (s, r')) = h (a, r')) : outcome ((read f >>= g) (s, r)) = f r >>= h := by
  show outcome (EStateM.bind (read f) g (s, r)) = _
  unfold EStateM.bind read
  simp only
  cases hf : f r with
  | error e => rfl
  | ok x => exact hk x.1 x.2 hf

theorem sim_set {f : S → S} {g : Unit → Run S β} {x : Except Err S} {s : S} {r : Bytes} (hk : outcome (g () (f s, r)) = x) :
    outcome ((set f >>= g) (s, r)) = x := hk

theorem sim_last {f : S → S} {x : Except Err S} {s : S} {r : Bytes} (hk : .ok (f s) = x) : outcome (set f (s, r)) = x := hk

theorem sim_byteTo {f : UInt8 → S → S} {g : UInt8 → Run S β} {h : UInt8 × Bytes → Except Err S} {s : S} {r : Bytes}
    (hk : ∀ a r', outcome (g a (f a s, r')) = h (a, r')) : outcome ((byteTo f >>= g) (s, r)) = readByte r >>= h := by
  cases r with
  | nil => rfl
  | cons b r => exact hk b r

theorem sim_opt8 {flag : Bytes} {f : UInt8 → S → S} {g : Unit → Run S β} {h : UInt8 × Bytes → Except Err S} {s : S} {r : Bytes} {old : UInt8}
    (ho : f old s = s) (hk : ∀ a r', outcome (g () (f a s, r')) = h (a, r')) :
    outcome ((opt8 flag f >>= g) (s, r)) = optU8 flag old r >>= h := by
  unfold opt8 optU8
  split
  · cases r with
    | nil => rfl
    | cons b r => exact hk b r
  · have := hk old r
    rw [ho] at this
    exact this

theorem sim_opt16 {flag tmp : Bytes} {f : UInt16 → S → S} {g : Bytes → Run S β} {h : UInt16 × Bytes × Bytes → Except Err S} {s : S} {r : Bytes} {old : UInt16}
    (ho : f old s = s) (hk : ∀ a t r', outcome (g t (f a s, r')) = h (a, t, r')) :
    outcome ((opt16 flag tmp f >>= g) (s, r)) = optU16 flag old tmp r >>= h := by
  unfold opt16 optU16
  split
  · show outcome (EStateM.bind (EStateM.bind (read (readerRead tmp)) _) g (s, r)) = _
    unfold EStateM.bind read
    simp only
    cases hf : readerRead tmp r with
    | error e => rfl
    | ok x => exact hk _ _ _
  · have := hk old tmp r
    rw [ho] at this
    exact this

theorem sim_opt24 {flag tmp : Bytes} {f : UInt32 → S → S} {g : Bytes → Run S β} {h : UInt32 × Bytes × Bytes → Except Err S} {s : S} {r : Bytes} {old : UInt32}
    (ho : f old s = s) (hk : ∀ a t r', outcome (g t (f a s, r')) = h (a, t, r')) :
    outcome ((opt24 flag tmp f >>= g) (s, r)) = optU24 flag old tmp r >>= h := by
  unfold opt24 optU24
  split
  · show outcome (EStateM.bind (EStateM.bind (read (readerRead tmp)) _) g (s, r)) = _
    unfold EStateM.bind read
    simp only
    cases hf : readerRead tmp r with
    | error e => rfl
    | ok x => exact hk _ _ _
  · have := hk old tmp r
    rw [ho] at this
    exact this

theorem sim_optText {flag : Bytes} {n : Nat} {f : Bytes → S → S} {g : Unit → Run S β} {h : Bytes × Bytes → Except Err S} {s : S} {r old : Bytes}
    (ho : f old s = s) (hk : ∀ a r', outcome (g () (f a s, r')) = h (a, r')) :
    outcome ((optText flag n f >>= g) (s, r)) = optN flag n old r >>= h := by
  unfold optText optN
  split
  · show outcome (EStateM.bind (EStateM.bind (read (readerRead (zeros n))) _) g (s, r)) = _
    unfold EStateM.bind read
    simp only
    cases hf : readerRead (zeros n) r with
    | error e => rfl
    | ok x => exact hk _ _
  · have := hk old r
    rw [ho] at this
    exact this

theorem sim_optText' {flag : Bytes} {n : Nat} {f : Bytes → S → S} {h : Bytes × Bytes → Except Err S} {s : S} {r old : Bytes}
    (ho : f old s = s) (hk : ∀ a r', .ok (f a s) = h (a, r')) : outcome (optText flag n f (s, r)) = optN flag n old r >>= h := by
  unfold optText optN
  split
  · exact sim_read fun a r' _ => hk a r'
  · have := hk old r
    rw [ho] at this
    exact this

theorem sim_optMade {flag : Bytes} {n : Nat} {f : Bytes → S → S} {g : Unit → Run S β} {h : Bytes × Bytes → Except Err S} {s : S} {r old : Bytes}
    (ho : f old s = s) (hf : ∀ a, f a (f (zeros n) s) = f a s) (hk : ∀ a r', outcome (g () (f a s, r')) = h (a, r')) :
    outcome ((optMade flag n f >>= g) (s, r)) = optN flag n old r >>= h := by
  unfold optMade optN
  split
  · show outcome (EStateM.bind (EStateM.bind (set _) fun _ => EStateM.bind (read (readerRead (zeros n))) fun x => set (f x)) g (s, r)) = _
    unfold EStateM.bind read set
    simp only
    cases hf' : readerRead (zeros n) r with
    | error e => rfl
    | ok x => simp only [hf]; exact hk _ _
  · have := hk old r
    rw [ho] at this
    exact this

end Run

open Run

theorem state_sim (e : SrStateData) (b : Bytes) : outcome (SrStateData.run (e, b)) = SrStateData.decode e b := by
  unfold SrStateData.run SrStateData.decode
  refine sim_byteTo fun _ _ => sim_byteTo fun _ _ => sim_byteTo fun _ _ => sim_byteTo fun _ _ => sim_read fun _ _ _ => rfl

theorem absCntr_sim (e : SrAbsCntrData) (b : Bytes) : outcome (SrAbsCntrData.run (e, b)) = SrAbsCntrData.decode e b := by
  unfold SrAbsCntrData.run SrAbsCntrData.decode
  exact sim_byteTo fun _ _ => sim_read fun _ _ _ => rfl

theorem absAn_sim (e : SrAbsAnSensData) (b : Bytes) : outcome (SrAbsAnSensData.run (e, b)) = SrAbsAnSensData.decode e b := by
  unfold SrAbsAnSensData.decode
  show outcome (EStateM.bind (Run.read _) _ (e, b)) = _
  unfold EStateM.bind Run.read
  simp only
  by_cases h : b.length < 4
  · simp only [h, if_true]; rfl
  · simp only [h, if_false]; rfl

theorem liquid_sim (e : SrLiquidLevelSensor) (b : Bytes) : outcome (SrLiquidLevelSensor.run (e, b)) = SrLiquidLevelSensor.decode e b := by
  unfold SrLiquidLevelSensor.run SrLiquidLevelSensor.decode
  refine sim_read fun fl r _ => sim_set ?_
  show outcome (EStateM.bind (Run.read _) _ _) = _
  unfold EStateM.bind Run.read
  simp only
  cases parseFlags (substr (fmt8 fl) 5 8) with
  | error e => rfl
  | ok n => exact sim_set (sim_read fun _ _ _ => sim_set (sim_read fun _ _ _ => rfl))

theorem result_sim (e : SrResultCode) (b : Bytes) : outcome (SrResultCode.run (e, b)) = SrResultCode.decode e b := by
  cases b <;> rfl

theorem extPos_sim (e : SrExtPosData) (b : Bytes) : outcome (SrExtPosData.run (e, b)) = SrExtPosData.decode e b := by
  unfold SrExtPosData.run SrExtPosData.decode
  exact sim_read fun _ _ _ => sim_set (sim_opt16 rfl fun _ _ _ => sim_opt16 rfl fun _ _ _ => sim_opt16 rfl fun _ _ _ => sim_opt8 rfl fun _ _ =>
    sim_opt16 rfl fun _ _ _ => rfl)

theorem counters_sim (e : SrCountersData) (b : Bytes) : outcome (SrCountersData.run (e, b)) = SrCountersData.decode e b := by
  unfold SrCountersData.run SrCountersData.decode
  exact sim_read fun _ _ _ => sim_set (sim_opt24 rfl fun _ _ _ => sim_opt24 rfl fun _ _ _ => sim_opt24 rfl fun _ _ _ => sim_opt24 rfl fun _ _ _ =>
    sim_opt24 rfl fun _ _ _ => sim_opt24 rfl fun _ _ _ => sim_opt24 rfl fun _ _ _ => sim_opt24 rfl fun _ _ _ => rfl)

theorem adSens_sim (e : SrAdSensorsData) (b : Bytes) : outcome (SrAdSensorsData.run (e, b)) = SrAdSensorsData.decode e b := by
  unfold SrAdSensorsData.run SrAdSensorsData.decode
  exact sim_read fun _ _ _ => sim_set (sim_byteTo fun _ _ => sim_read fun _ _ _ => sim_set (
    sim_opt8 rfl fun _ _ => sim_opt8 rfl fun _ _ => sim_opt8 rfl fun _ _ => sim_opt8 rfl fun _ _ =>
    sim_opt8 rfl fun _ _ => sim_opt8 rfl fun _ _ => sim_opt8 rfl fun _ _ => sim_opt8 rfl fun _ _ =>
    sim_opt24 rfl fun _ _ _ => sim_opt24 rfl fun _ _ _ => sim_opt24 rfl fun _ _ _ => sim_opt24 rfl fun _ _ _ =>
    sim_opt24 rfl fun _ _ _ => sim_opt24 rfl fun _ _ _ => sim_opt24 rfl fun _ _ _ => sim_opt24 rfl fun _ _ _ => rfl))

theorem module_sim (e : SrModuleData) (b : Bytes) : outcome (SrModuleData.run (e, b)) = SrModuleData.decode e b := by
  unfold SrModuleData.run SrModuleData.decode
  exact sim_read fun _ _ _ => sim_set (sim_read fun _ _ _ => sim_set (sim_read fun _ _ _ => sim_set (sim_read fun _ _ _ => sim_set (
    sim_byteTo fun _ _ => sim_byteTo fun _ _ => sim_read fun _ _ _ => sim_set (sim_read fun _ _ _ => rfl)))))

theorem disp_sim (e : SrDispatcherIdentity) (b : Bytes) : outcome (SrDispatcherIdentity.run (e, b)) = SrDispatcherIdentity.decode e b := by
  unfold SrDispatcherIdentity.run SrDispatcherIdentity.decode
  exact sim_byteTo fun _ _ => sim_read fun _ _ _ => sim_set rfl

theorem auth_sim (e : SrAuthInfo) (b : Bytes) : outcome (SrAuthInfo.run (e, b)) = SrAuthInfo.decode e b := by
  unfold SrAuthInfo.run SrAuthInfo.decode
  refine sim_read fun _ _ _ => sim_set (sim_read fun _ r _ => sim_set ?_)
  show outcome (EStateM.bind (Run.read _) _ _) = _
  unfold EStateM.bind Run.read
  simp only
  by_cases h : r = []
  · subst h; rfl
  · simp only [ne_eq, h, not_false_eq_true, decide_true, if_true]
    exact sim_read fun _ _ _ => rfl

theorem term_sim (e : SrTermIdentity) (b : Bytes) : outcome (SrTermIdentity.run (e, b)) = SrTermIdentity.decode e b := by
  unfold SrTermIdentity.run SrTermIdentity.decode
  exact sim_read fun _ _ _ => sim_set (sim_read fun _ _ _ => sim_set (sim_opt16 rfl fun _ _ _ => sim_optText rfl fun _ _ => sim_optText rfl fun _ _ =>
    sim_optText rfl fun _ _ => sim_optMade rfl (fun _ => rfl) fun _ _ => sim_opt16 rfl fun _ _ _ => sim_optText' rfl fun _ _ => rfl))

theorem pos_sim (e : SrPosData) (b : Bytes) : outcome (SrPosData.run (e, b)) = SrPosData.decode e b := by
  unfold SrPosData.run SrPosData.decode
  refine sim_read fun _ _ _ => sim_set (sim_read fun _ _ _ => sim_set (sim_read fun _ _ _ => sim_set (sim_read fun _ _ _ => sim_set (
    sim_read fun t2 _ _ => sim_set ?_))))
  show outcome (EStateM.bind (Run.read _) _ _) = _
  unfold EStateM.bind Run.read
  simp only
  cases hq : parseUint2 16 (substr (fmt16 (le16 t2)) 2 16) with
  | mk sp er =>
    cases er with
    | some er => rfl
    | none =>
      refine sim_set (sim_byteTo fun _ _ => sim_set (sim_read fun _ _ _ => sim_set (sim_byteTo fun _ _ => sim_byteTo fun _ r => ?_)))
      split
      · show outcome (EStateM.bind (Run.read _) _ (_, r)) = _
        unfold EStateM.bind Run.read
        simp only
        cases readerRead (zeros 4) r with
        | error e => rfl
        | ok x => rfl
      · rfl

theorem resp_sim (nested : Bytes → Option Err) (e : SrResponse) (b : Bytes) : outcome ((SrResponse.run nested) (e, b)) = (do
    let (s, r) ← SrResponse.decodeHead b
    match nested r with
    | some er => .error er
    | none => pure s) := by
  unfold SrResponse.run SrResponse.decodeHead
  cases hb : bufferRead (zeros 2) b with
  | error e =>
    show outcome (EStateM.bind (Run.read _) _ _) = _
    unfold EStateM.bind Run.read
    simp only [hb]; rfl
  | ok x =>
    obtain ⟨t, r⟩ := x
    cases r with
    | nil => simp [bind, EStateM.bind, Run.read, Run.set, Run.byteTo, hb, outcome, readByte, Except.bind]
    | cons v r =>
      cases hn : nested r <;>
        simp [bind, EStateM.bind, Run.read, Run.set, Run.byteTo, hb, hn, outcome, readByte, Except.bind, pure_eq_ok]

/-! ## A field that an error leaves alone -/

namespace Run
variable {S α β γ : Type}

/-- `p` is the same after `m` as before. -/
def Keeps (p : S → γ) (m : Run S α) : Prop := ∀ s r, match m (s, r) with | .ok _ s' => p s'.1 = p s | .error _ s' => p s'.1 = p s

/-- The same if `m` fails. -/
def Spares (p : S → γ) (m : Run S α) : Prop := ∀ s r, match m (s, r) with | .ok _ _ => True | .error _ s' => p s'.1 = p s

variable {p : S → γ}

theorem Keeps.spares {m : Run S α} (h : Keeps p m) : Spares p m := by
  intro s r
  have := h s r
  cases hm : m (s, r) with
  | ok a s' => trivial
  | error e s' => rw [hm] at this; exact this

theorem keeps_read (f : Bytes → Except Err (α × Bytes)) : Keeps p (read f : Run S α) := by
  intro s r
  unfold read
  cases hf : f r with
  | ok x => simp only
  | error e => simp only

theorem keeps_set {f : S → S} (h : ∀ s, p (f s) = p s) : Keeps p (set f) := fun s _ => h s

theorem keeps_byteTo {f : UInt8 → S → S} (h : ∀ v s, p (f v s) = p s) : Keeps p (byteTo f) := by
  intro s r
  cases r with
  | nil => exact h _ s
  | cons v r => exact h _ s

theorem spares_set (f : S → S) : Spares p (set f) := fun _ _ => trivial

theorem spares_pure (a : α) : Spares p (pure a : Run S α) := fun _ _ => trivial

theorem spares_bind {m : Run S α} {g : α → Run S β} (hm : Keeps p m) (hg : ∀ a, Spares p (g a)) : Spares p (m >>= g) := by
  intro s r
  have h1 := hm s r
  show match EStateM.bind m g (s, r) with | .ok _ _ => True | .error _ s' => p s'.1 = p s
  unfold EStateM.bind
  cases h : m (s, r) with
  | error e s' => rw [h] at h1; exact h1
  | ok a s' =>
    rw [h] at h1
    have h2 := hg a s'.1 s'.2
    simp only
    have e : (s'.1, s'.2) = s' := rfl
    rw [e] at h2
    cases h3 : g a s' with
    | ok b s'' => trivial
    | error e s'' => rw [h3] at h2; simp only at h2 ⊢; rw [h2]; exact h1

theorem spares_ite {c : Prop} [Decidable c] {m m' : Run S α} (h : Spares p m) (h' : Spares p m') : Spares p (if c then m else m') := by
  split
  · exact h
  · exact h'

theorem after_spares {m : Run S Unit} (h : Spares p m) {s : S} {b : Bytes} {e : Err} (he : (m.after s b).2 = some e) : p (m.after s b).1 = p s := by
  have h1 := h s b
  unfold after at he ⊢
  cases hm : m (s, b) with
  | ok a s' => rw [hm] at he; simp at he
  | error e s' => rw [hm] at h1; exact h1

end Run

theorem pos_spares : Spares (fun e : SrPosData => (e.altitude, e.sourceData)) SrPosData.run := by
  unfold SrPosData.run
  refine spares_bind (keeps_read _) fun _ => spares_bind (keeps_set fun _ => rfl) fun _ => spares_bind (keeps_read _) fun _ =>
    spares_bind (keeps_set fun _ => rfl) fun _ => spares_bind (keeps_read _) fun _ => spares_bind (keeps_set fun _ => rfl) fun _ =>
    spares_bind (keeps_read _) fun _ => spares_bind (keeps_set fun _ => rfl) fun _ => spares_bind (keeps_read _) fun _ =>
    spares_bind (keeps_set fun _ => rfl) fun _ => spares_bind (keeps_read _) fun _ => spares_bind (keeps_set fun _ => rfl) fun _ =>
    spares_bind (keeps_byteTo fun _ _ => rfl) fun _ => spares_bind (keeps_set fun _ => rfl) fun _ => spares_bind (keeps_read _) fun _ =>
    spares_bind (keeps_set fun _ => rfl) fun _ => spares_bind (keeps_byteTo fun _ _ => rfl) fun _ =>
    spares_bind (keeps_byteTo fun _ _ => rfl) fun _ => spares_ite (spares_bind (keeps_read _) fun _ => spares_set _) (spares_pure _)

theorem auth_spares : Spares (fun e : SrAuthInfo => e.serverSequence) SrAuthInfo.run := by
  unfold SrAuthInfo.run
  exact spares_bind (keeps_read _) fun _ => spares_bind (keeps_set fun _ => rfl) fun _ => spares_bind (keeps_read _) fun _ =>
    spares_bind (keeps_set fun _ => rfl) fun _ => spares_bind (keeps_read _) fun _ =>
    spares_ite (spares_bind (keeps_read _) fun _ => spares_set _) (spares_pure _)

theorem absAn_spares : Spares (fun e : SrAbsAnSensData => e) SrAbsAnSensData.run := by
  intro s r
  by_cases h : r.length < 4
  · simp [SrAbsAnSensData.run, bind, EStateM.bind, Run.read, h]
  · simp [SrAbsAnSensData.run, bind, EStateM.bind, Run.read, Run.set, h]

/-! ## Positions cut anywhere -/

theorem pos_cut (e d : SrPosData) (c : Bytes) (n : Nat) (hd : SrPosData.decode e c = .ok d) (hn : n ≤ 21) :
    let p := (SrPosData.run.after e (c.take n)).1
    CutField 0 4 n p.navigationTime d.navigationTime e.navigationTime ∧
    CutField 4 8 n p.latitude d.latitude e.latitude ∧
    CutField 8 12 n p.longitude d.longitude e.longitude ∧
    CutField 12 13 n (p.alte, p.lohs, p.lahs, p.mv, p.bb, p.cs, p.fix, p.vld) (d.alte, d.lohs, d.lahs, d.mv, d.bb, d.cs, d.fix, d.vld)
      (e.alte, e.lohs, e.lahs, e.mv, e.bb, e.cs, e.fix, e.vld) ∧
    CutField 13 15 n (p.speed, p.directionHighestBit, p.altitudeSign) (d.speed, d.directionHighestBit, d.altitudeSign)
      (e.speed, e.directionHighestBit, e.altitudeSign) ∧
    CutField 13 16 n p.direction d.direction e.direction ∧ (n = 14 ∨ n = 15 → p.direction = 0) ∧
    CutField 16 19 n p.odometer d.odometer e.odometer ∧
    CutField 16 20 n p.digitalInputs d.digitalInputs e.digitalInputs ∧ (17 ≤ n → n ≤ 19 → p.digitalInputs = 0) ∧
    CutField 19 21 n p.source d.source e.source ∧ (n = 20 → p.source = 0) := by
  have hl := pos_len e d c hd
  rcases c with _ | ⟨b0, _ | ⟨b1, _ | ⟨b2, _ | ⟨b3, _ | ⟨b4, _ | ⟨b5, _ | ⟨b6, _ | ⟨b7, _ | ⟨b8, _ | ⟨b9, _ | ⟨b10,
    _ | ⟨b11, _ | ⟨b12, _ | ⟨b13, _ | ⟨b14, _ | ⟨b15, _ | ⟨b16, _ | ⟨b17, _ | ⟨b18, _ | ⟨b19, _ | ⟨b20, r⟩⟩⟩⟩⟩⟩⟩⟩⟩⟩⟩⟩⟩⟩⟩⟩⟩⟩⟩⟩⟩
  all_goals first
    | (exfalso; simp at hl; done)
    | skip
  simp only [SrPosData.decode, readerRead, zeros, List.replicate, List.length_cons, List.length_nil, List.take_succ_cons,
    List.take_zero, List.drop_succ_cons, List.drop_zero, List.drop_nil, reduceCtorEq, if_false, ok_bind, readByte,
    List.append_nil, List.cons_append, List.nil_append, parse_speed, pure_eq_ok] at hd
  have hx : ∃ v, d = { navigationTime := decTime (le32 [b0, b1, b2, b3]), latitude := decLat (le32 [b4, b5, b6, b7])
                       longitude := decLon (le32 [b8, b9, b10, b11])
                       alte := substr (fmt8 b12) 0 1, lohs := substr (fmt8 b12) 1 2, lahs := substr (fmt8 b12) 2 3, mv := substr (fmt8 b12) 3 4
                       bb := substr (fmt8 b12) 4 5, cs := substr (fmt8 b12) 5 6, fix := substr (fmt8 b12) 6 7, vld := substr (fmt8 b12) 7 8
                       directionHighestBit := (le16 [b13, b14] >>> 15 &&& 1).toUInt8, altitudeSign := (le16 [b13, b14] >>> 14 &&& 1).toUInt8
                       speed := UInt16.ofNat ((le16 [b13, b14]).toNat % 16384) / 10
                       direction := b15 ||| ((le16 [b13, b14] >>> 15 &&& 1).toUInt8 <<< 7), odometer := le32 [b16, b17, b18, 0]
                       digitalInputs := b19, source := b20, altitude := v, sourceData := e.sourceData } := by
    obtain ⟨v, _, h⟩ := bind_eq_ok.mp hd
    cases h
    exact ⟨v, rfl⟩
  obtain ⟨v, rfl⟩ := hx
  by_cases ha : substr (fmt8 b12) 0 1 = one <;> interval_cases n
  all_goals
    simp [ha, pure, EStateM.pure, CutField, Run.after, SrPosData.run, bind, EStateM.bind, Run.read, Run.set, Run.byteTo, readerRead, readByte, zeros, parse_speed]

end Egts
