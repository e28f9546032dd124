import Verif.Proofs.Fuel
import Verif.Proofs.Record

/-! # The nesting bound used by the decoders is large enough -/

namespace Egts

theorem resp_depth (env : Env) (k m : Nat) (b : Bytes) (hk : b.length / 12 + 2 ≤ k) (hm : b.length / 12 + 2 ≤ m) :
    srRespDecode env k b = srRespDecode env m b := by
  rw [srRespDecode_eq, srRespDecode_eq]
  have := mu_le b
  have h : mu b / 12 ≤ b.length / 12 := Nat.div_le_div_right this
  exact unfoldResp_stable env _ _ k m b (.inr ⟨by omega, by omega⟩)

/-- The subrecord loop does not depend on the nesting bound, once it is large enough. -/
theorem rds_unfold (env : Env) (f g) (k m : Nat) (n : Nat) (acc : List RecordData) (b : Bytes)
    (hk : b.length / 12 + 2 ≤ k) (hm : b.length / 12 + 2 ≤ m) :
    rdsLoop env (unfoldResp env f k) n acc b = rdsLoop env (unfoldResp env g m) n acc b := by
  apply rdsLoop_congr
  intro s hs
  have := mu_le b
  apply unfoldResp_stable
  rcases hs with rfl | ⟨h1, h2⟩
  · left; exact ⟨rfl, by omega, by omega⟩
  · right
    have : mu s / 12 ≤ b.length / 12 := Nat.div_le_div_right (by omega)
    omega

theorem sds_unfold (env : Env) (f g) (k m : Nat) (n : Nat) (acc : List ServiceDataRecord) (b : Bytes)
    (hk : b.length / 12 + 2 ≤ k) (hm : b.length / 12 + 2 ≤ m) :
    sdsLoop (fun x => rdsLoop env (unfoldResp env f k) x.length [] x) n acc b =
    sdsLoop (fun x => rdsLoop env (unfoldResp env g m) x.length [] x) n acc b := by
  apply sdsLoop_congr
  intro s hs
  apply rdsLoop_congr
  intro u hu
  have := mu_le b
  apply unfoldResp_stable
  rcases hu with rfl | ⟨h1, h2⟩
  · left; exact ⟨rfl, by omega, by omega⟩
  · right
    rcases hs with rfl | ⟨h3, h4⟩
    · simp [mu] at h1
    · have : mu u / 12 ≤ b.length / 12 := Nat.div_le_div_right (by omega)
      omega

theorem depthFor_ge {n k : Nat} (hn : 2 ≤ n) (h : n ≤ k) : n / 12 + 2 ≤ depthFor k := by unfold depthFor; omega

theorem rdsLoop_nil_of_short (env f) : ∀ n acc, rdsLoop env f n acc [] = .ok acc := by
  intro n acc; cases n <;> simp [rdsLoop]

theorem sdsLoop_nil_of_short (f) : ∀ n acc, sdsLoop f n acc [] = .ok acc := by
  intro n acc; cases n <;> simp [sdsLoop]

/-- `RecordDataSet.decode` is the loop at any large enough bound. -/
theorem rdsDecode_depth (env : Env) (k n : Nat) (acc : List RecordData) (b : Bytes) (hk : depthFor b.length ≤ k)
    (hn : b.length ≤ n) : rdsLoop env (srRespDecode env k) n acc b = RecordDataSet.decode env acc b := by
  rw [RecordDataSet.decode, rdsLoop_fuel env _ n b.length acc b hn (Nat.le_refl _)]
  unfold depthFor at hk
  match b, hk with
  | [], _ => rfl
  | [x], _ => simp [rdsLoop, rdStep, readByte, bufferRead, zeros, ok_bind, error_bind]
  | x :: y :: b, hk =>
    rw [srRespDecode_eq, srRespDecode_eq]
    simp only [List.length_cons] at hk ⊢
    exact rds_unfold env _ _ _ _ _ _ _ (by simp only [List.length_cons]; omega)
      (by simp only [List.length_cons, depthFor]; omega)

theorem sdsDecode_depth (env : Env) (k n : Nat) (acc : List ServiceDataRecord) (b : Bytes) (hk : depthFor b.length ≤ k)
    (hn : b.length ≤ n) : sdsLoop (rdsDecodeD env k) n acc b = ServiceDataSet.decode env acc b := by
  rw [ServiceDataSet.decode, sdsLoop_fuel _ n b.length acc b hn (Nat.le_refl _)]
  unfold depthFor at hk
  match b, hk with
  | [], _ => rfl
  | [x], _ => simp [sdsLoop, sdrStep, sdrHead, readByte, readerRead, zeros, ok_bind, error_bind]
  | x :: y :: b, hk =>
    have e : ∀ k, rdsDecodeD env k = fun x => rdsLoop env (unfoldResp env (fun _ => .error .nesting) k) x.length [] x := by
      intro k; funext x; rw [rdsDecodeD, srRespDecode_eq]
    rw [e, e]
    exact sds_unfold env _ _ _ _ _ _ _ (by simp only [List.length_cons] at hk ⊢; omega)
      (by simp only [List.length_cons, depthFor]; omega)

/-- Encoded subrecords are decoded one after the other, whatever follows them. -/
theorem rds_stream (env : Env) (rds : List RecordData) (h : ∀ rd ∈ rds, rd.WF env) :
    ∃ b out, RecordDataSet.encode env rds = .ok b ∧ List.Forall₂ (RecordData.ReadBack env) rds out ∧
      ∀ prior r, RecordDataSet.decode env prior (b ++ r) = RecordDataSet.decode env (prior ++ out) r := by
  have dec : ∀ k b out, (∀ acc r n, (b ++ r).length ≤ n → rdsLoop env (srRespDecode env (k + 1)) n acc (b ++ r)
        = rdsLoop env (srRespDecode env (k + 1)) r.length (acc ++ out) r) → b.length ≤ k →
      ∀ prior, RecordDataSet.decode env prior b = .ok (prior ++ out) := by
    intro k b out d hk prior
    have h1 := d prior [] b.length (by simp)
    rw [List.append_nil, rdsLoop_nil_of_short, rdsDecode_depth env _ _ _ _ (by unfold depthFor; omega) (Nat.le_refl _)] at h1
    exact h1
  obtain ⟨b, _, e, _, _⟩ := rds_rt env 0 rds h
  obtain ⟨b1, out, e1, s, d⟩ := rds_rt env b.length rds h
  rw [e] at e1; cases e1
  have hd := dec b.length b out d (Nat.le_refl _)
  refine ⟨b, out, e, s, fun prior r => ?_⟩
  obtain ⟨b2, out2, e2, _, d2⟩ := rds_rt env (b ++ r).length rds h
  rw [e] at e2; cases e2
  have hd2 := dec (b ++ r).length b out2 d2 (by simp)
  have : prior ++ out = prior ++ out2 := by
    have := (hd prior).symm.trans (hd2 prior)
    injection this
  have h3 := d2 prior r (b ++ r).length (Nat.le_refl _)
  rw [rdsDecode_depth env _ _ _ _ (by unfold depthFor; omega) (Nat.le_refl _),
    rdsDecode_depth env _ _ _ _ (by unfold depthFor; simp) (Nat.le_refl _)] at h3
  rw [h3, this]

/-- Encoded service records are decoded one after the other, whatever follows them. -/
theorem sds_stream (env : Env) (s : List ServiceDataRecord) (h : ∀ r ∈ s, r.WF env) :
    ∃ b out, ServiceDataSet.encode env s = .ok b ∧ List.Forall₂ (ServiceDataRecord.ReadBack env) s out ∧
      (s ≠ [] → b ≠ []) ∧
      ∀ prior r, ServiceDataSet.decode env prior (b ++ r) = ServiceDataSet.decode env (prior ++ out) r := by
  have dec : ∀ k b out, (∀ acc r n, (b ++ r).length ≤ n → sdsLoop (rdsDecodeD env (k + 1)) n acc (b ++ r)
        = sdsLoop (rdsDecodeD env (k + 1)) r.length (acc ++ out) r) → b.length ≤ k →
      ∀ prior, ServiceDataSet.decode env prior b = .ok (prior ++ out) := by
    intro k b out d hk prior
    have h1 := d prior [] b.length (by simp)
    rw [List.append_nil, sdsLoop_nil_of_short, sdsDecode_depth env _ _ _ _ (by unfold depthFor; omega) (Nat.le_refl _)] at h1
    exact h1
  obtain ⟨b, _, e, _, _, _⟩ := sds_rt env 0 s h
  obtain ⟨b1, out, e1, hs, hne, d⟩ := sds_rt env b.length s h
  rw [e] at e1; cases e1
  have hd := dec b.length b out d (Nat.le_refl _)
  refine ⟨b, out, e, hs, hne, fun prior r => ?_⟩
  obtain ⟨b2, out2, e2, _, _, d2⟩ := sds_rt env (b ++ r).length s h
  rw [e] at e2; cases e2
  have hd2 := dec (b ++ r).length b out2 d2 (by simp)
  have : prior ++ out = prior ++ out2 := by
    have := (hd prior).symm.trans (hd2 prior)
    injection this
  have h3 := d2 prior r (b ++ r).length (Nat.le_refl _)
  rw [sdsDecode_depth env _ _ _ _ (by unfold depthFor; omega) (Nat.le_refl _),
    sdsDecode_depth env _ _ _ _ (by unfold depthFor; simp) (Nat.le_refl _)] at h3
  rw [h3, this]

theorem rds_decode_nil (env prior) : RecordDataSet.decode env prior [] = .ok prior := rfl
theorem sds_decode_nil (env prior) : ServiceDataSet.decode env prior [] = .ok prior := rfl

/-- One step of `RecordDataSet.decode`. -/
theorem rds_decode_step (env : Env) (prior : List RecordData) (k : Nat) (r r' : Bytes) (rd : Option RecordData)
    (hr : r ≠ []) (hk : depthFor r.length ≤ k)
    (h : rdStep env (srRespDecode env k) r = .ok (rd, r')) :
    RecordDataSet.decode env prior r = RecordDataSet.decode env (prior ++ rd.toList) r' := by
  rw [← rdsDecode_depth env k r.length prior r hk (Nat.le_refl _), rdsLoop_step hr h (Nat.le_refl _)]
  have := rdStep_lt h
  exact rdsDecode_depth env k _ _ _ (by unfold depthFor at *; omega) (Nat.le_refl _)

/-- One step of `ServiceDataSet.decode`. -/
theorem sds_decode_step (env : Env) (prior : List ServiceDataRecord) (k : Nat) (r r' : Bytes) (sdr : ServiceDataRecord)
    (hr : r ≠ []) (hk : depthFor r.length ≤ k)
    (h : sdrStep (rdsDecodeD env k) r = .ok (sdr, r')) :
    ServiceDataSet.decode env prior r = ServiceDataSet.decode env (prior ++ [sdr]) r' := by
  rw [← sdsDecode_depth env k r.length prior r hk (Nat.le_refl _), sdsLoop_step hr h (Nat.le_refl _)]
  have := sdrStep_lt h
  exact sdsDecode_depth env k _ _ _ (by unfold depthFor at *; omega) (Nat.le_refl _)

theorem sdsLoop_count (f) : ∀ n acc b out, sdsLoop f n acc b = .ok out → acc.length ≤ out.length ∧ 7 * (out.length - acc.length) ≤ b.length
  | 0, acc, b, out, h => by cases h; simp
  | n + 1, acc, b, out, h => by
    rw [sdsLoop] at h
    split at h
    · cases h; simp
    · simp only [bind_eq_ok, Prod.exists] at h
      obtain ⟨sdr, r, h1, h2⟩ := h
      have hl := sdrStep_lt h1
      have ih := sdsLoop_count f n _ _ _ h2
      simp only [List.length_append, List.length_cons, List.length_nil] at ih
      omega

end Egts
