import Verif.Proofs.LayoutRec
import Verif.Proofs.Truncate
import Verif.Proofs.Wire
import Verif.Proofs.Frame

/-! # What a failed `Decode` leaves behind (C89) -/

namespace Egts
open Layout

theorem num_congr {a b : Bytes} : ∀ (w o : Nat), (∀ i, o ≤ i → i < o + w → byteAt a i = byteAt b i) → num a o w = num b o w
  | 0, _, _ => rfl
  | w + 1, o, h => by
    rw [num, num, h o (Nat.le_refl _) (by omega), num_congr w (o + 1) fun i h1 h2 => h i (by omega) (by omega)]

/-- The head of a record depends on its own bytes only. -/
theorem head_congr {a b : Bytes} (h : ∀ i, i < ServiceDataRecord.headLength b → byteAt a i = byteAt b i) :
    ServiceDataRecord.headLength a = ServiceDataRecord.headLength b ∧ ServiceDataRecord.head a = ServiceDataRecord.head b := by
  have h7 := headLength_ge b
  have hf : ∀ k, bitAt a 4 k = bitAt b 4 k := fun k => by unfold bitAt; rw [h 4 (by omega)]
  have hH : ServiceDataRecord.headLength b = 7 + 4 * (bitAt b 4 0 + bitAt b 4 1 + bitAt b 4 2) := rfl
  have hlt : ∀ k, bitAt b 4 k < 2 := fun k => Nat.mod_lt _ (by omega)
  have l0 := hlt 0
  have l1 := hlt 1
  have l2 := hlt 2
  have hn : ∀ o w, o + w ≤ ServiceDataRecord.headLength b → num a o w = num b o w :=
    fun o w ho => num_congr w o fun i _ hi => h i (by omega)
  have hopt : ∀ {α : Type} (k o w : Nat) (g : Nat → α) (old : α), (bitAt b 4 k = 1 → o + w ≤ ServiceDataRecord.headLength b) →
      opt (bitAt b 4 k) (g (num a o w)) old = opt (bitAt b 4 k) (g (num b o w)) old := by
    intro α k o w g old ho
    unfold opt
    split
    · rename_i hk; rw [hn o w (ho hk)]
    · rfl
  refine ⟨by simp only [ServiceDataRecord.headLength, hf], ?_⟩
  simp only [ServiceDataRecord.head, hf]
  rw [hn 0 2 (by omega), hn 2 2 (by omega), hopt 0 5 4 UInt32.ofNat 0 (by intro; omega),
    hopt 1 (5 + 4 * bitAt b 4 0) 4 UInt32.ofNat 0 (by intro; omega),
    hopt 2 (5 + 4 * (bitAt b 4 0 + bitAt b 4 1)) 4 (fun n => (timeOffset + (n : Int) * 1000000000 : Int)) zeroTime (by intro; omega),
    h _ (show 5 + 4 * (bitAt b 4 0 + bitAt b 4 1 + bitAt b 4 2) < _ by omega),
    h _ (show 6 + 4 * (bitAt b 4 0 + bitAt b 4 1 + bitAt b 4 2) < _ by omega)]

/-- A record that is followed by something: whatever follows instead, the same record is read. -/
theorem sdrStep_cut {g : Bytes → Except Err (List RecordData)} (hg : g [] = .ok []) {b r : Bytes} {s : ServiceDataRecord}
    (h : sdrStep g b = .ok (s, r)) (hr : r ≠ []) : ∃ w, w ≠ [] ∧ b = w ++ r ∧ ∀ x, sdrStep g (w ++ x) = .ok (s, x) := by
  rcases (sdrStep_at g b s r).mp h with ⟨_, _, h3⟩ | ⟨h1, rds, h2, h3, h4⟩
  · exact absurd h3 hr
  have h7 := headLength_ge b
  have hlen : ServiceDataRecord.headLength b + num b 0 2 < b.length := by
    have : r.length ≠ 0 := fun h => hr (List.length_eq_zero_iff.mp h)
    rw [h4, List.length_drop] at this
    omega
  refine ⟨b.take (ServiceDataRecord.headLength b + num b 0 2), ?_, by rw [h4, List.take_append_drop], fun x => ?_⟩
  · intro e
    have := congrArg List.length e
    rw [List.length_take, List.length_nil] at this
    omega
  generalize hw : b.take (ServiceDataRecord.headLength b + num b 0 2) = w
  have hwl : w.length = ServiceDataRecord.headLength b + num b 0 2 := by rw [← hw, List.length_take]; omega
  have hb : ∀ i, i < ServiceDataRecord.headLength b + num b 0 2 → byteAt (w ++ x) i = byteAt b i := by
    intro i hi
    rw [byteAt, List.getD_eq_getElem?_getD, List.getElem?_append_left (by omega), ← List.getD_eq_getElem?_getD, ← byteAt, ← hw,
      byteAt_take hi]
  obtain ⟨e1, e2⟩ := head_congr (a := w ++ x) (b := b) fun i hi => hb i (by omega)
  have e3 : num (w ++ x) 0 2 = num b 0 2 := num_congr 2 0 fun i _ hi => hb i (by omega)
  have e4 : text (w ++ x) (ServiceDataRecord.headLength b) (num b 0 2) = text b (ServiceDataRecord.headLength b) (num b 0 2) := by
    unfold text
    have z1 : num b 0 2 - ((w ++ x).length - ServiceDataRecord.headLength b) = 0 := by rw [List.length_append]; omega
    have z2 : num b 0 2 - (b.length - ServiceDataRecord.headLength b) = 0 := by omega
    rw [z1, z2]
    congr 1
    rw [List.take_drop, List.take_drop, hw, List.take_append_of_le_length (by omega), List.take_of_length_le (by omega)]
  rw [sdrStep_at, e1, e2, e3, e4]
  by_cases hz : num b 0 2 = 0 ∧ x = []
  · obtain ⟨hz, rfl⟩ := hz
    refine .inl ⟨by rw [List.append_nil]; omega, ?_, rfl⟩
    have et : text b (ServiceDataRecord.headLength b) (num b 0 2) = [] := by simp [text, hz, zeros]
    rw [et, hg] at h2
    cases h2
    exact h3
  · refine .inr ⟨?_, rds, h2, h3, ?_⟩
    · rw [List.length_append]
      have : num b 0 2 ≠ 0 ∨ x.length ≠ 0 := by
        by_contra hc
        rw [not_or, not_not, not_not] at hc
        exact hz ⟨hc.1, List.length_eq_zero_iff.mp hc.2⟩
      omega
    · rw [← hwl, List.drop_left]

/-- The same for a subrecord. -/
theorem rdStep_cut {env : Env} {f : Bytes → Except Err SrResponse} {b r : Bytes} {rd : Option RecordData}
    (h : rdStep env f b = .ok (rd, r)) (hr : r ≠ []) : ∃ w, w ≠ [] ∧ b = w ++ r ∧ ∀ x, rdStep env f (w ++ x) = .ok (rd, x) := by
  obtain ⟨h1, d, h2, h3, h4⟩ := (rdStep_at env f b rd r).mp h
  have hlen : 3 + num b 1 2 < b.length := by
    have : r.length ≠ 0 := fun h => hr (List.length_eq_zero_iff.mp h)
    rw [h4, List.length_drop] at this
    omega
  refine ⟨b.take (3 + num b 1 2), ?_, by rw [h4, List.take_append_drop], fun x => ?_⟩
  · intro e
    have := congrArg List.length e
    rw [List.length_take, List.length_nil] at this
    omega
  generalize hw : b.take (3 + num b 1 2) = w
  have hwl : w.length = 3 + num b 1 2 := by rw [← hw, List.length_take]; omega
  have hb : ∀ i, i < 3 + num b 1 2 → byteAt (w ++ x) i = byteAt b i := by
    intro i hi
    rw [byteAt, List.getD_eq_getElem?_getD, List.getElem?_append_left (by omega), ← List.getD_eq_getElem?_getD, ← byteAt, ← hw,
      byteAt_take hi]
  have e3 : num (w ++ x) 1 2 = num b 1 2 := num_congr 2 1 fun i _ hi => hb i (by omega)
  have e4 : ((w ++ x).drop 3).take (num b 1 2) = (b.drop 3).take (num b 1 2) := by
    rw [List.take_drop, List.take_drop, hw, List.take_append_of_le_length (by omega), List.take_of_length_le (by omega)]
  rw [rdStep_at, e3, e4, hb 0 (by omega)]
  exact ⟨by rw [List.length_append]; omega, d, h2, h3, by rw [← hwl, List.drop_left]⟩

theorem rdsDecodeD_nil (env : Env) (k : Nat) : rdsDecodeD env k [] = .ok [] := rfl

/-- The two loops go together; and where an error comes from. -/
theorem sdsKept_loop (env : Env) (k : Nat) : ∀ (n : Nat) (s0 : List ServiceDataRecord) (b : Bytes), b.length ≤ n → depthFor b.length ≤ k →
    (∃ out, sdsLoop (rdsDecodeD env k) n s0 b = .ok out ∧ sdsKept (rdsDecodeD env k) n s0 b = out) ∨
    ∃ e pre rest new, sdsLoop (rdsDecodeD env k) n s0 b = .error e ∧ b = pre ++ rest ∧ rest ≠ [] ∧
      ServiceDataSet.decode env [] pre = .ok new ∧ sdsKept (rdsDecodeD env k) n s0 b = s0 ++ new ∧
      sdrStep (rdsDecodeD env k) rest = .error e
  | 0, s0, b, _, _ => .inl ⟨s0, rfl, rfl⟩
  | n + 1, s0, b, hn, hk => by
    unfold sdsLoop sdsKept
    by_cases hb : b = []
    · rw [if_pos hb, if_pos hb]; exact .inl ⟨s0, rfl, rfl⟩
    rw [if_neg hb, if_neg hb]
    cases hs : sdrStep (rdsDecodeD env k) b with
    | error e => exact .inr ⟨e, [], b, [], rfl, rfl, hb, sds_decode_nil env [], (List.append_nil _).symm, hs⟩
    | ok x =>
      obtain ⟨sdr, r⟩ := x
      have hlt := sdrStep_lt hs
      simp only [ok_bind]
      rcases sdsKept_loop env k n (s0 ++ [sdr]) r (by omega) (by unfold depthFor at *; omega) with h | ⟨e, pre, rest, new, h1, h2, h3, h4, h5, h6⟩
      · exact .inl h
      have hr : r ≠ [] := by rw [h2]; exact fun h => h3 (List.append_eq_nil_iff.mp h).2
      obtain ⟨w, hw, hw2, hw3⟩ := sdrStep_cut (rdsDecodeD_nil env k) hs hr
      refine .inr ⟨e, w ++ pre, rest, sdr :: new, h1, by rw [hw2, h2, List.append_assoc], h3, ?_, by rw [h5, List.append_assoc]; rfl, h6⟩
      have hle : (w ++ pre).length ≤ b.length := by rw [hw2, h2]; simp only [List.length_append]; omega
      rw [sds_decode_step env [] k _ _ _ (by simp [hw]) (by unfold depthFor at *; omega) (hw3 pre)]
      obtain ⟨rs, hrs, rfl⟩ := (sds_iff env [] new pre).mp h4
      exact (sds_iff env _ _ pre).mpr ⟨new, hrs, rfl⟩

theorem rdsKept_loop (env : Env) (k : Nat) : ∀ (n : Nat) (s0 : List RecordData) (b : Bytes), b.length ≤ n → depthFor b.length ≤ k →
    (∃ out, rdsLoop env (srRespDecode env k) n s0 b = .ok out ∧ rdsKept env (srRespDecode env k) n s0 b = out) ∨
    ∃ e pre rest new, rdsLoop env (srRespDecode env k) n s0 b = .error e ∧ b = pre ++ rest ∧ rest ≠ [] ∧
      RecordDataSet.decode env [] pre = .ok new ∧ rdsKept env (srRespDecode env k) n s0 b = s0 ++ new ∧
      rdStep env (srRespDecode env k) rest = .error e
  | 0, s0, b, _, _ => .inl ⟨s0, rfl, rfl⟩
  | n + 1, s0, b, hn, hk => by
    unfold rdsLoop rdsKept
    by_cases hb : b = []
    · rw [if_pos hb, if_pos hb]; exact .inl ⟨s0, rfl, rfl⟩
    rw [if_neg hb, if_neg hb]
    cases hs : rdStep env (srRespDecode env k) b with
    | error e => exact .inr ⟨e, [], b, [], rfl, rfl, hb, rds_decode_nil env [], (List.append_nil _).symm, hs⟩
    | ok x =>
      obtain ⟨rd, r⟩ := x
      have hlt := rdStep_lt hs
      simp only [ok_bind]
      rcases rdsKept_loop env k n (s0 ++ rd.toList) r (by omega) (by unfold depthFor at *; omega) with h | ⟨e, pre, rest, new, h1, h2, h3, h4, h5, h6⟩
      · exact .inl h
      have hr : r ≠ [] := by rw [h2]; exact fun h => h3 (List.append_eq_nil_iff.mp h).2
      obtain ⟨w, hw, hw2, hw3⟩ := rdStep_cut hs hr
      refine .inr ⟨e, w ++ pre, rest, rd.toList ++ new, h1, by rw [hw2, h2, List.append_assoc], h3, ?_, by rw [h5, List.append_assoc], h6⟩
      have hle : (w ++ pre).length ≤ b.length := by rw [hw2, h2]; simp only [List.length_append]; omega
      rw [rds_decode_step env [] k _ _ _ (by simp [hw]) (by unfold depthFor at *; omega) (hw3 pre)]
      obtain ⟨rs, hrs, rfl⟩ := (rds_iff env [] new pre).mp h4
      exact (rds_iff env _ _ pre).mpr ⟨new, hrs, by simp⟩

end Egts
