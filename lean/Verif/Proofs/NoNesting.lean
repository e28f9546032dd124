import Verif.Proofs.Depth

/-! # The error value reserved for an exhausted nesting bound is never returned -/

namespace Egts

/-- Not the model's artificial error. -/
def NN {α : Type} (x : Except Err α) : Prop := x ≠ .error .nesting

theorem NN.ok {α} (a : α) : NN (.ok a : Except Err α) := by intro h; cases h
theorem NN.pure {α} (a : α) : NN (Pure.pure a : Except Err α) := by intro h; cases h
theorem NN.bind {α β} {x : Except Err α} {f : α → Except Err β} (hx : NN x) (hf : ∀ a, NN (f a)) : NN (x >>= f) := by
  cases x with
  | error e => intro h; apply hx; rw [error_bind] at h; cases h; rfl
  | ok a => exact hf a
theorem NN.ite {α} {c : Prop} [Decidable c] {x y : Except Err α} (hx : NN x) (hy : NN y) : NN (if c then x else y) := by
  split <;> assumption
theorem NN.err {α} {e : Err} (h : e ≠ .nesting) : NN (.error e : Except Err α) := by intro hh; cases hh; exact h rfl

theorem NN.readByte (r) : NN (readByte r) := by cases r <;> simp [NN, Egts.readByte]
theorem NN.readerRead (b r) : NN (readerRead b r) := by unfold Egts.readerRead; exact NN.ite (NN.err (by decide)) (NN.ok _)
theorem NN.bufferRead (b r) : NN (bufferRead b r) := by unfold Egts.bufferRead; exact NN.ite (NN.err (by decide)) (NN.ok _)
theorem NN.readCString (r) : NN (readCString r) := by
  induction r with
  | nil => exact NN.err (by decide)
  | cons x r ih =>
    rw [Egts.readCString]
    split
    · exact NN.ok _
    · split
      · exact NN.ok _
      · rename_i e h; intro hh; cases hh; exact ih h
theorem parseLoop_nn (m : Nat) : ∀ s n, (parseLoop m n s).2 ≠ some .nesting
  | [], n => by simp [parseLoop]
  | c :: s, n => by
    rw [parseLoop]
    split
    · split
      · simp
      · exact parseLoop_nn m s _
    · split
      · split
        · simp
        · exact parseLoop_nn m s _
      · simp
theorem parseUint2_nn (b s) : (parseUint2 b s).2 ≠ some .nesting := by
  unfold parseUint2; split
  · simp
  · exact parseLoop_nn _ _ _
theorem NN.parseFlags (s) : NN (parseFlags s) := by
  unfold Egts.parseFlags
  have := parseUint2_nn 8 s
  split
  · exact NN.ok _
  · rename_i e h; intro hh; cases hh; rw [h] at this; exact this rfl
theorem NN.optU8 (f o r) : NN (optU8 f o r) := by unfold Egts.optU8; exact NN.ite (NN.readByte _) (NN.pure _)
theorem NN.optN (f n o r) : NN (optN f n o r) := by unfold Egts.optN; exact NN.ite (NN.readerRead _ _) (NN.pure _)
theorem NN.optU16 (f o t r) : NN (optU16 f o t r) := by
  unfold Egts.optU16; exact NN.ite (NN.bind (NN.readerRead _ _) fun _ => NN.pure _) (NN.pure _)
theorem NN.optU24 (f o t r) : NN (optU24 f o t r) := by
  unfold Egts.optU24; exact NN.ite (NN.bind (NN.readerRead _ _) fun _ => NN.pure _) (NN.pure _)
theorem NN.optU32 (f o r) : NN (optU32 f o r) := by
  unfold Egts.optU32; exact NN.ite (NN.bind (NN.readerRead _ _) fun _ => NN.pure _) (NN.pure _)
theorem NN.optTime (f o r) : NN (optTime f o r) := by
  unfold Egts.optTime; exact NN.ite (NN.bind (NN.readerRead _ _) fun _ => NN.pure _) (NN.pure _)

/-- Discharge `NN` goals about the decoders. -/
macro "nn" : tactic => `(tactic| repeat (first
  | exact NN.ok _ | exact NN.pure _ | exact NN.readByte _ | exact NN.readerRead _ _ | exact NN.bufferRead _ _
  | exact NN.readCString _ | exact NN.parseFlags _ | exact NN.optU8 _ _ _ | exact NN.optN _ _ _ _
  | exact NN.optU16 _ _ _ _ | exact NN.optU24 _ _ _ _ | exact NN.optU32 _ _ _ | exact NN.optTime _ _ _
  | exact NN.err (by decide) | apply NN.ite | apply NN.bind | intro _ | assumption))

theorem pos_nn (d0 b) : NN (SrPosData.decode d0 b) := by
  unfold SrPosData.decode
  simp only [parse_speed]
  nn
theorem term_nn (d0 b) : NN (SrTermIdentity.decode d0 b) := by unfold SrTermIdentity.decode; nn
theorem module_nn (d0 b) : NN (SrModuleData.decode d0 b) := by unfold SrModuleData.decode; nn
theorem result_nn (d0 b) : NN (SrResultCode.decode d0 b) := by unfold SrResultCode.decode; nn
theorem ext_nn (d0 b) : NN (SrExtPosData.decode d0 b) := by unfold SrExtPosData.decode; nn
theorem ad_nn (d0 b) : NN (SrAdSensorsData.decode d0 b) := by unfold SrAdSensorsData.decode; nn
theorem state_nn (d0 b) : NN (SrStateData.decode d0 b) := by unfold SrStateData.decode; nn
theorem liquid_nn (d0 b) : NN (SrLiquidLevelSensor.decode d0 b) := by unfold SrLiquidLevelSensor.decode; nn
theorem cntr_nn (d0 b) : NN (SrAbsCntrData.decode d0 b) := by unfold SrAbsCntrData.decode; nn
theorem auth_nn (d0 b) : NN (SrAuthInfo.decode d0 b) := by unfold SrAuthInfo.decode; nn
theorem counters_nn (d0 b) : NN (SrCountersData.decode d0 b) := by unfold SrCountersData.decode; nn
theorem an_nn (d0 b) : NN (SrAbsAnSensData.decode d0 b) := by unfold SrAbsAnSensData.decode; nn
theorem disp_nn (d0 b) : NN (SrDispatcherIdentity.decode d0 b) := by unfold SrDispatcherIdentity.decode; nn
theorem plus_nn (d0 b) : NN (StorageRecord.decode d0 b) := by
  unfold StorageRecord.decode
  split
  · exact NN.ok _
  · exact NN.err (by decide)

theorem sub_nn (env f t len b) (hf : ∀ x, NN (f x)) : NN (subDecode env f t len b) := by
  unfold subDecode
  split
  all_goals first
    | exact NN.pure _
    | exact NN.bind (pos_nn _ _) fun _ => NN.pure _
    | exact NN.bind (term_nn _ _) fun _ => NN.pure _
    | exact NN.bind (module_nn _ _) fun _ => NN.pure _
    | exact NN.bind (hf _) fun _ => NN.pure _
    | exact NN.bind (result_nn _ _) fun _ => NN.pure _
    | exact NN.bind (ext_nn _ _) fun _ => NN.pure _
    | exact NN.bind (ad_nn _ _) fun _ => NN.pure _
    | exact NN.bind (state_nn _ _) fun _ => NN.pure _
    | exact NN.bind (liquid_nn _ _) fun _ => NN.pure _
    | exact NN.bind (cntr_nn _ _) fun _ => NN.pure _
    | exact NN.bind (auth_nn _ _) fun _ => NN.pure _
    | exact NN.bind (counters_nn _ _) fun _ => NN.pure _
    | exact NN.bind (an_nn _ _) fun _ => NN.pure _
    | exact NN.bind (disp_nn _ _) fun _ => NN.pure _
    | exact NN.bind (plus_nn _ _) fun _ => NN.pure _
    | (refine NN.ite (NN.bind (state_nn _ _) fun _ => NN.pure _) (NN.err (by decide)))

theorem rdsLoop_nn (env f) (hf : ∀ x, NN (f x)) : ∀ n acc b, NN (rdsLoop env f n acc b)
  | 0, acc, b => NN.ok _
  | n + 1, acc, b => by
    rw [rdsLoop]
    refine NN.ite (NN.ok _) (NN.bind ?_ fun _ => rdsLoop_nn env f hf n _ _)
    unfold rdStep
    refine NN.bind (NN.readByte _) fun _ => NN.bind (NN.bufferRead _ _) fun _ => NN.bind (sub_nn _ _ _ _ _ hf) fun _ => NN.pure _

theorem sdsLoop_nn (f) (hf : ∀ x, NN (f x)) : ∀ n acc b, NN (sdsLoop f n acc b)
  | 0, acc, b => NN.ok _
  | n + 1, acc, b => by
    rw [sdsLoop]
    refine NN.ite (NN.ok _) (NN.bind ?_ fun _ => sdsLoop_nn f hf n _ _)
    unfold sdrStep
    refine NN.bind ?_ fun _ => NN.ite (NN.bind (NN.readerRead _ _) fun _ => NN.bind (hf _) fun _ => NN.pure _) (NN.pure _)
    unfold sdrHead
    nn

theorem unfoldResp_nn (env f) (hf : ∀ x, NN (f x)) : ∀ d b, NN (unfoldResp env f d b)
  | 0, b => hf b
  | d + 1, b => by
    show NN (respF env (unfoldResp env f d) b)
    unfold respF
    refine NN.bind ?_ fun _ => NN.bind (sdsLoop_nn _ (fun x => rdsLoop_nn _ _ (unfoldResp_nn env f hf d) _ _ _) _ _ _) fun _ => NN.pure _
    unfold SrResponse.decodeHead
    nn

end Egts
