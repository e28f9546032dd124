import Verif.Props.Records

/-! # Decoding terminates (C20) -/

namespace Egts

theorem asWritten_loops {env : Env} {resp : Bytes → Except Err SrResponse} {rds : List RecordData → Bytes → Except Err (List RecordData)}
    {sds : List ServiceDataRecord → Bytes → Except Err (List ServiceDataRecord)} (h : AsWritten env resp rds sds) :
    (∀ n acc b, b.length ≤ n → rds acc b = rdsLoop env resp n acc b) ∧ (∀ n acc b, b.length ≤ n → sds acc b = sdsLoop (rds []) n acc b) := by
  constructor
  · intro n
    induction n with
    | zero =>
      intro acc b hb
      obtain rfl : b = [] := List.length_eq_zero_iff.mp (by omega)
      rw [h.onRds]; rfl
    | succ n ih =>
      intro acc b hb
      rw [h.onRds, rdsLoop]
      split
      · rfl
      · cases hs : rdStep env resp b with
        | error e => simp only [error_bind]
        | ok x =>
          obtain ⟨x1, x2⟩ := x
          simp only [ok_bind]
          have := rdStep_lt hs
          exact ih _ _ (by omega)
  · intro n
    induction n with
    | zero =>
      intro acc b hb
      obtain rfl : b = [] := List.length_eq_zero_iff.mp (by omega)
      rw [h.onSds]; rfl
    | succ n ih =>
      intro acc b hb
      rw [h.onSds, sdsLoop]
      split
      · rfl
      · cases hs : sdrStep (rds []) b with
        | error e => simp only [error_bind]
        | ok x =>
          obtain ⟨x1, x2⟩ := x
          simp only [ok_bind]
          have := sdrStep_lt hs
          exact ih _ _ (by omega)

theorem unfoldResp_fix {env : Env} {resp : Bytes → Except Err SrResponse} (h : ∀ b, resp b = respF env resp b) (n : Nat) :
    unfoldResp env resp n = resp := by
  induction n with
  | zero => rfl
  | succ n ih =>
    funext b
    rw [unfoldResp, ih, ← h]

theorem decode_fix (env : Env) (b : Bytes) : SrResponse.decode env {} b = respF env (SrResponse.decode env {}) b := by
  rw [C20_response_nesting env {} b (SrResponse.decode env {})]
  show unfoldResp env _ (b.length / 12 + 1 + 1) b = _
  refine respF_congr env _ _ b fun s hs => ?_
  rw [C20_response_nesting env {} s (SrResponse.decode env {})]
  refine unfoldResp_stable env _ _ _ _ s ?_
  rcases hs with rfl | ⟨h1, h2⟩
  · exact .inl ⟨rfl, by omega, by omega⟩
  · have := mu_le b
    have := mu_le s
    exact .inr ⟨by omega, by omega⟩

/-- The decoders terminate on every input: the recursion that is written in the source has one and only one solution, the decoders of the model.
(If there were an input on which it does not come to an end, it would leave open what is to be returned there.) -/
theorem C20_terminates (env : Env) :
    AsWritten env (SrResponse.decode env {}) (RecordDataSet.decode env) (ServiceDataSet.decode env) ∧
    ∀ resp rds sds, AsWritten env resp rds sds →
      resp = SrResponse.decode env {} ∧ rds = RecordDataSet.decode env ∧ sds = ServiceDataSet.decode env := by
  have hr : ∀ acc b, RecordDataSet.decode env acc b = rdsLoop env (SrResponse.decode env {}) b.length acc b := by
    intro acc b
    rw [C20_record_set_nesting env acc b (SrResponse.decode env {}), unfoldResp_fix (decode_fix env)]
  have hs : ∀ acc b, ServiceDataSet.decode env acc b = sdsLoop (RecordDataSet.decode env []) b.length acc b := by
    intro acc b
    rw [C20_service_set_nesting env acc b (SrResponse.decode env {}), unfoldResp_fix (decode_fix env)]
    rw [show RecordDataSet.decode env [] = fun b => rdsLoop env (SrResponse.decode env {}) b.length [] b from funext (hr [])]
  refine ⟨⟨fun b => ?_, fun acc b => ?_, fun acc b => ?_⟩, ?_⟩
  · rw [decode_fix env b, respF]
    cases SrResponse.decodeHead b with
    | error e => simp only [error_bind]
    | ok x =>
      obtain ⟨s, r⟩ := x
      simp only [ok_bind]
      rw [hs, show RecordDataSet.decode env [] = fun b => rdsLoop env (SrResponse.decode env {}) b.length [] b from funext (hr [])]
  · rw [hr]
    by_cases hb : b = []
    · subst hb; simp [rdsLoop]
    · rw [if_neg hb]
      obtain ⟨n, hn⟩ : ∃ n, b.length = n + 1 := ⟨b.length - 1, by have := List.length_pos_iff.mpr hb; omega⟩
      rw [hn, rdsLoop, if_neg hb]
      cases hst : rdStep env (SrResponse.decode env {}) b with
      | error e => simp only [error_bind]
      | ok x =>
        obtain ⟨x1, x2⟩ := x
        simp only [ok_bind]
        have := rdStep_lt hst
        rw [hr]
        exact rdsLoop_fuel env _ _ _ _ _ (by omega) (Nat.le_refl _)
  · rw [hs]
    by_cases hb : b = []
    · subst hb; simp [sdsLoop]
    · rw [if_neg hb]
      obtain ⟨n, hn⟩ : ∃ n, b.length = n + 1 := ⟨b.length - 1, by have := List.length_pos_iff.mpr hb; omega⟩
      rw [hn, sdsLoop, if_neg hb]
      cases hst : sdrStep (RecordDataSet.decode env []) b with
      | error e => simp only [error_bind]
      | ok x =>
        obtain ⟨x1, x2⟩ := x
        simp only [ok_bind]
        have := sdrStep_lt hst
        rw [hs]
        exact sdsLoop_fuel _ _ _ _ _ (by omega) (Nat.le_refl _)
  · intro resp rds sds h
    obtain ⟨l1, l2⟩ := asWritten_loops h
    have hrds : ∀ x, rds [] x = rdsLoop env resp x.length [] x := fun x => l1 _ _ _ (Nat.le_refl _)
    have hfix : ∀ b, resp b = respF env resp b := by
      intro b
      rw [h.onResp, respF]
      cases SrResponse.decodeHead b with
      | error e => simp only [error_bind]
      | ok x =>
        obtain ⟨s, r⟩ := x
        simp only [ok_bind]
        rw [l2 _ _ _ (Nat.le_refl _), show rds [] = fun b => rdsLoop env resp b.length [] b from funext hrds]
    have e1 : resp = SrResponse.decode env {} := by
      funext b
      rw [C20_response_nesting env {} b resp, unfoldResp_fix hfix]
    subst e1
    have e2 : rds = RecordDataSet.decode env := by
      funext acc b
      rw [hr]
      exact l1 _ _ _ (Nat.le_refl _)
    subst e2
    refine ⟨rfl, rfl, ?_⟩
    funext acc b
    rw [hs]
    exact l2 _ _ _ (Nat.le_refl _)

end Egts
