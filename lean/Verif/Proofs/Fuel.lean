import Verif.Proofs.GoLemmas
import Verif.Spec.Nesting
import Mathlib.Tactic.ByContra

/-! # Fuel and nesting bounds are always sufficient -/

namespace Egts

/-! ## consumption -/

theorem readByte_ok {r r' : Bytes} {b : UInt8} (h : readByte r = .ok (b, r')) : r = b :: r' := by
  cases r with
  | nil => cases h
  | cons x xs => simp only [readByte_cons, Except.ok.injEq, Prod.mk.injEq] at h; rw [h.1, h.2]

theorem readerRead_ok {buf r b r' : Bytes} (h : readerRead buf r = .ok (b, r')) :
    r ≠ [] ∧ b = r.take buf.length ++ buf.drop r.length ∧ r' = r.drop buf.length := by
  unfold readerRead at h
  split at h
  · cases h
  · cases h; exact ⟨by assumption, rfl, rfl⟩

theorem bufferRead_ok {buf r b r' : Bytes} (h : bufferRead buf r = .ok (b, r')) :
    (r = [] → buf = []) ∧ b = r.take buf.length ++ buf.drop r.length ∧ r' = r.drop buf.length := by
  unfold bufferRead at h
  split at h
  · cases h
  · rename_i hh
    cases h
    refine ⟨fun e => ?_, rfl, rfl⟩
    by_cases hb : buf = []
    · exact hb
    · exact absurd ⟨e, hb⟩ hh

/-- The pieces of a successful `rdStep`. -/
theorem rdStep_ok {env f r rd r'} (h : rdStep env f r = .ok (rd, r')) :
    ∃ t r1 tmp r2 d, r = t :: r1 ∧ bufferRead (zeros 2) r1 = .ok (tmp, r2) ∧
      subDecode env f t (le16 tmp) (r2.take (le16 tmp).toNat) = .ok d ∧
      rd = d.map (fun d => { subrecordType := t, subrecordLength := le16 tmp, subrecordData := some d }) ∧
      r' = r2.drop (le16 tmp).toNat := by
  simp only [rdStep, bind_eq_ok, Prod.exists, pure_eq_ok, Except.ok.injEq, Prod.mk.injEq] at h
  obtain ⟨t, r1, h1, tmp, r2, h2, d, h3, h4, h5⟩ := h
  exact ⟨t, r1, tmp, r2, d, readByte_ok h1, h2, h3, h4.symm, h5.symm⟩

theorem rdStep_lt {env f r rd r'} (h : rdStep env f r = .ok (rd, r')) : r'.length < r.length := by
  obtain ⟨t, r1, tmp, r2, d, h1, h2, _, _, h5⟩ := rdStep_ok h
  obtain ⟨_, _, h6⟩ := bufferRead_ok h2
  subst h1 h5 h6
  simp; omega

/-- More fuel than bytes changes nothing. -/
theorem rdsLoop_fuel (env f) : ∀ (n m : Nat) (acc : List RecordData) (r : Bytes),
    r.length ≤ n → r.length ≤ m → rdsLoop env f n acc r = rdsLoop env f m acc r := by
  intro n
  induction n with
  | zero =>
    intro m acc r h1 _
    have : r = [] := List.length_eq_zero_iff.mp (by omega)
    subst this
    cases m <;> simp [rdsLoop]
  | succ n ih =>
    intro m acc r h1 h2
    cases m with
    | zero =>
      have : r = [] := List.length_eq_zero_iff.mp (by omega)
      subst this; simp [rdsLoop]
    | succ m =>
      by_cases hr : r = []
      · subst hr; simp [rdsLoop]
      · simp only [rdsLoop, if_neg hr]
        cases hs : rdStep env f r with
        | error e => rfl
        | ok p =>
          obtain ⟨rd, r'⟩ := p
          have := rdStep_lt hs
          simp only [ok_bind]
          exact ih m _ r' (by omega) (by omega)

/-! ### service records -/

theorem optU32_len {flag old r v r'} (h : optU32 flag old r = .ok (v, r')) : r'.length ≤ r.length := by
  unfold optU32 at h
  split at h
  · simp only [bind_eq_ok, Prod.exists, pure_eq_ok, Except.ok.injEq, Prod.mk.injEq] at h
    obtain ⟨b, r1, h1, _, rfl⟩ := h
    obtain ⟨_, _, rfl⟩ := readerRead_ok h1
    simp
  · cases h; exact Nat.le_refl _

theorem optTime_len {flag old r v r'} (h : optTime flag old r = .ok (v, r')) : r'.length ≤ r.length := by
  unfold optTime at h
  split at h
  · simp only [bind_eq_ok, Prod.exists, pure_eq_ok, Except.ok.injEq, Prod.mk.injEq] at h
    obtain ⟨b, r1, h1, _, rfl⟩ := h
    obtain ⟨_, _, rfl⟩ := readerRead_ok h1
    simp
  · cases h; exact Nat.le_refl _

/-- The pieces of a successful `sdrHead`. -/
theorem sdrHead_ok {r sdr r'} (h : sdrHead r = .ok (sdr, r')) :
    ∃ a b c d fl r1, r = a :: b :: c :: d :: fl :: r1 ∧ sdr.recordLength = le16 [a, b] ∧
      sdr.recordNumber = le16 [c, d] ∧ r'.length + 7 ≤ r.length ∧ ∃ k, r' = r.drop k := by
  simp only [sdrHead, bind_eq_ok, Prod.exists, pure_eq_ok, Except.ok.injEq, Prod.mk.injEq] at h
  obtain ⟨t1, r1, h1, t2, r2, h2, fl, r3, h3, oid, r4, h4, ev, r5, h5, tm, r6, h6, sst, r7, h7, rst, r8, h8, rfl, rfl⟩ := h
  have n3 := readByte_ok h3
  obtain ⟨_, e1, d1⟩ := readerRead_ok h1
  obtain ⟨_, e2, d2⟩ := readerRead_ok h2
  have l1 : t1.length = 2 := by rw [readerRead_length h1]; simp
  rw [zeros_length] at d1
  rw [l1] at d2
  match r, d1, d2, e1, e2 with
  | [], d1, d2, _, _ => subst d1; simp at d2; simp [d2] at n3
  | [_], d1, d2, _, _ => subst d1; simp at d2; simp [d2] at n3
  | [_, _], d1, d2, _, _ => subst d1; simp at d2; simp [d2] at n3
  | [_, _, _], d1, d2, _, _ => subst d1; simp at d2; simp [d2] at n3
  | a :: b :: c :: d :: rr, d1, d2, e1, e2 =>
    simp only [List.drop_succ_cons, List.drop_zero] at d1
    subst d1
    simp only [List.drop_succ_cons, List.drop_zero] at d2
    subst d2
    have hk : ∃ k, r8 = r3.drop k := by
      have g4 : ∃ k, r4 = r3.drop k := by
        unfold optU32 at h4; split at h4
        · simp only [bind_eq_ok, Prod.exists, pure_eq_ok, Except.ok.injEq, Prod.mk.injEq] at h4
          obtain ⟨_, _, hh, _, rfl⟩ := h4
          exact ⟨_, (readerRead_ok hh).2.2⟩
        · cases h4; exact ⟨0, rfl⟩
      have g5 : ∃ k, r5 = r4.drop k := by
        unfold optU32 at h5; split at h5
        · simp only [bind_eq_ok, Prod.exists, pure_eq_ok, Except.ok.injEq, Prod.mk.injEq] at h5
          obtain ⟨_, _, hh, _, rfl⟩ := h5
          exact ⟨_, (readerRead_ok hh).2.2⟩
        · cases h5; exact ⟨0, rfl⟩
      have g6 : ∃ k, r6 = r5.drop k := by
        unfold optTime at h6; split at h6
        · simp only [bind_eq_ok, Prod.exists, pure_eq_ok, Except.ok.injEq, Prod.mk.injEq] at h6
          obtain ⟨_, _, hh, _, rfl⟩ := h6
          exact ⟨_, (readerRead_ok hh).2.2⟩
        · cases h6; exact ⟨0, rfl⟩
      obtain ⟨k4, rfl⟩ := g4
      obtain ⟨k5, rfl⟩ := g5
      obtain ⟨k6, hk6⟩ := g6
      have := readByte_ok h7
      have h8' := readByte_ok h8
      refine ⟨k4 + k5 + k6 + 2, ?_⟩
      have e : (List.drop k4 r3).drop k5 = r3.drop (k4 + k5) := by rw [List.drop_drop]
      rw [e, List.drop_drop] at hk6
      rw [← List.drop_drop, ← hk6, this, h8']; rfl
    refine ⟨a, b, c, d, fl, r3, by rw [n3], ?_, ?_, ?_, ?_⟩
    · rw [e1]; rfl
    · rw [e2, l1]; rfl
    · have := optU32_len h4
      have := optU32_len h5
      have := optTime_len h6
      rw [readByte_ok h7, readByte_ok h8] at this
      simp only [n3, List.length_cons] at *
      omega
    · obtain ⟨k, rfl⟩ := hk
      refine ⟨k + 5, ?_⟩
      rw [n3]; simp

theorem sdrStep_lt {f r sdr r'} (h : sdrStep f r = .ok (sdr, r')) : r'.length + 7 ≤ r.length := by
  simp only [sdrStep, bind_eq_ok, Prod.exists] at h
  obtain ⟨s1, r1, h1, h2⟩ := h
  obtain ⟨_, _, _, _, _, _, _, _, _, hlt, _⟩ := sdrHead_ok h1
  split at h2
  · simp only [bind_eq_ok, Prod.exists, pure_eq_ok, Except.ok.injEq, Prod.mk.injEq] at h2
    obtain ⟨b, r2, h3, rds, _, _, rfl⟩ := h2
    obtain ⟨_, _, rfl⟩ := readerRead_ok h3
    simp at *; omega
  · simp only [pure_eq_ok, Except.ok.injEq, Prod.mk.injEq] at h2
    rw [← h2.2]; exact hlt

theorem sdsLoop_fuel (f) : ∀ (n m : Nat) (acc : List ServiceDataRecord) (r : Bytes),
    r.length ≤ n → r.length ≤ m → sdsLoop f n acc r = sdsLoop f m acc r := by
  intro n
  induction n with
  | zero =>
    intro m acc r h1 _
    have : r = [] := List.length_eq_zero_iff.mp (by omega)
    subst this
    cases m <;> simp [sdsLoop]
  | succ n ih =>
    intro m acc r h1 h2
    cases m with
    | zero =>
      have : r = [] := List.length_eq_zero_iff.mp (by omega)
      subst this; simp [sdsLoop]
    | succ m =>
      by_cases hr : r = []
      · subst hr; simp [sdsLoop]
      · simp only [sdsLoop, if_neg hr]
        cases hs : sdrStep f r with
        | error e => rfl
        | ok p =>
          obtain ⟨rd, r'⟩ := p
          have := sdrStep_lt hs
          simp only [ok_bind]
          exact ih m _ r' (by omega) (by omega)

/-! ## nesting -/

/-- Length without trailing zero bytes. -/
def mu : Bytes → Nat
  | [] => 0
  | x :: r => if mu r = 0 ∧ x = 0 then 0 else mu r + 1

theorem mu_le (b : Bytes) : mu b ≤ b.length := by
  induction b with
  | nil => simp [mu]
  | cons x r ih => simp only [mu, List.length_cons]; split <;> omega

theorem mu_tail (x : UInt8) (r : Bytes) : mu r ≤ mu (x :: r) - 1 := by
  simp only [mu]; split <;> omega

theorem mu_cons_zero {x : UInt8} {r : Bytes} (h : mu (x :: r) = 0) : x = 0 ∧ mu r = 0 := by
  simp only [mu] at h
  split at h
  · rename_i hh; exact ⟨hh.2, hh.1⟩
  · omega

theorem mu_zeros (n : Nat) : mu (zeros n) = 0 := by
  induction n with
  | zero => rfl
  | succ n ih => simp only [zeros, List.replicate_succ, mu] at *; simp [ih]

theorem mu_append_zeros (b : Bytes) (n : Nat) : mu (b ++ zeros n) = mu b := by
  induction b with
  | nil => simp [mu_zeros, mu]
  | cons x r ih => simp only [List.cons_append, mu, ih]

theorem mu_drop (k : Nat) : ∀ b : Bytes, mu (b.drop k) ≤ mu b - k := by
  induction k with
  | zero => simp
  | succ k ih =>
    intro b
    cases b with
    | nil => simp [mu]
    | cons x r =>
      simp only [List.drop_succ_cons]
      have := ih r
      have := mu_tail x r
      omega

theorem mu_take (k : Nat) : ∀ b : Bytes, mu (b.take k) ≤ mu b := by
  induction k with
  | zero => simp [mu]
  | succ k ih =>
    intro b
    cases b with
    | nil => simp
    | cons x r =>
      simp only [List.take_succ_cons, mu]
      have := ih r
      split
      · omega
      · rename_i h1
        split
        · rename_i h2; exact absurd ⟨by omega, h2.2⟩ h1
        · omega

theorem drop_zeros (n k : Nat) : (zeros n).drop k = zeros (n - k) := by simp [zeros]

/-- What the record-data loop passes to the response decoder. -/
theorem rdsLoop_congr (env f g) : ∀ (n : Nat) (acc : List RecordData) (b : Bytes),
    (∀ s, (s = [] ∨ (2 ≤ mu b ∧ mu s ≤ mu b - 3)) → f s = g s) →
    rdsLoop env f n acc b = rdsLoop env g n acc b := by
  intro n
  induction n with
  | zero => intros; rfl
  | succ n ih =>
    intro acc b h
    by_cases hb : b = []
    · subst hb; simp [rdsLoop]
    · simp only [rdsLoop, if_neg hb]
      have hstep : rdStep env f b = rdStep env g b := by
        cases b with
        | nil => exact absurd rfl hb
        | cons t r1 =>
          simp only [rdStep, readByte_cons, ok_bind]
          cases hr : bufferRead (zeros 2) r1 with
          | error e => rfl
          | ok p =>
            obtain ⟨tmp, r2⟩ := p
            obtain ⟨_, e1, e2⟩ := bufferRead_ok hr
            simp only [ok_bind]
            have hs : f (r2.take (le16 tmp).toNat) = g (r2.take (le16 tmp).toNat) := by
              apply h
              by_cases hnil : r2.take (le16 tmp).toNat = []
              · exact .inl hnil
              · right
                match r1, e1, e2 with
                | [], e1, e2 => simp [e2] at hnil
                | [_], e1, e2 => simp [e2] at hnil
                | a :: c :: rr, e1, e2 =>
                  simp only [zeros_length, List.drop_succ_cons, List.drop_zero] at e2
                  subst e2
                  simp only [zeros_length, List.take_succ_cons, List.take_zero, drop_zeros, List.length_cons] at e1
                  have e1' : tmp = [a, c] := by rw [e1]; simp [zeros]
                  subst e1'
                  have hz : ¬ (a = 0 ∧ c = 0) := by
                    rintro ⟨rfl, rfl⟩
                    exact hnil (by simp [le16])
                  have m1 := mu_take (le16 [a, c]).toNat r2
                  have m2 := mu_tail c r2
                  have m3 := mu_tail a (c :: r2)
                  have m4 := mu_tail t (a :: c :: r2)
                  constructor
                  · by_contra hlt
                    have hac : mu (a :: c :: r2) = 0 := by omega
                    obtain ⟨ha, hc⟩ := mu_cons_zero hac
                    exact hz ⟨ha, (mu_cons_zero hc).1⟩
                  · omega
            simp only [subDecode, hs]
      rw [hstep]
      cases hs : rdStep env g b with
      | error e => rfl
      | ok p =>
        obtain ⟨rd, r'⟩ := p
        simp only [ok_bind]
        apply ih
        intro s hsr
        apply h
        obtain ⟨t, r1, tmp, r2, d, h1, h2, _, _, h5⟩ := rdStep_ok hs
        obtain ⟨_, _, e2⟩ := bufferRead_ok h2
        have m1 := mu_drop (le16 tmp).toNat r2
        have m2 := mu_drop 2 r1
        have m3 := mu_tail t r1
        rw [zeros_length] at e2
        rw [← h5] at m1
        rw [← e2] at m2
        rw [← h1] at m3
        rcases hsr with h | ⟨h, h'⟩
        · exact .inl h
        · exact .inr ⟨by omega, by omega⟩

/-- What the service-record loop passes to the record-data decoder. -/
theorem sdsLoop_congr (f g) : ∀ (n : Nat) (acc : List ServiceDataRecord) (b : Bytes),
    (∀ s, (s = [] ∨ (1 ≤ mu b ∧ mu s ≤ mu b - 7)) → f s = g s) →
    sdsLoop f n acc b = sdsLoop g n acc b := by
  intro n
  induction n with
  | zero => intros; rfl
  | succ n ih =>
    intro acc b h
    by_cases hb : b = []
    · subst hb; simp [sdsLoop]
    · simp only [sdsLoop, if_neg hb]
      have hstep : sdrStep f b = sdrStep g b := by
        simp only [sdrStep]
        cases hh : sdrHead b with
        | error e => rfl
        | ok p =>
          obtain ⟨sdr, r⟩ := p
          obtain ⟨a, c, _, _, _, r1, hbe, hrl, _, hlt, k, hk⟩ := sdrHead_ok hh
          simp only [ok_bind]
          by_cases hr : r = []
          · simp [hr]
          · simp only [ne_eq, hr, not_false_eq_true, if_true]
            cases hrd : readerRead (zeros sdr.recordLength.toNat) r with
            | error e => rfl
            | ok q =>
              obtain ⟨d, r'⟩ := q
              obtain ⟨_, e1, _⟩ := readerRead_ok hrd
              simp only [ok_bind]
              have : f d = g d := by
                apply h
                by_cases hd : d = []
                · exact .inl hd
                · right
                  have m1 : mu d ≤ mu r := by
                    rw [e1, drop_zeros, mu_append_zeros]; exact mu_take _ _
                  have hlk : 7 ≤ k := by
                    by_contra hlt7
                    rw [hk] at hlt
                    simp only [List.length_drop] at hlt
                    omega
                  have m2 := mu_drop k b
                  rw [← hk] at m2
                  constructor
                  · by_contra hlt1
                    have hz : mu b = 0 := by omega
                    rw [hbe] at hz
                    have hac : a = 0 ∧ c = 0 :=
                      ⟨(mu_cons_zero hz).1, (mu_cons_zero (mu_cons_zero hz).2).1⟩
                    have hl0 : sdr.recordLength.toNat = 0 := by rw [hrl, hac.1, hac.2]; rfl
                    apply hd
                    rw [e1, hl0]; simp [zeros]
                  · omega
              rw [this]
      rw [hstep]
      cases hs : sdrStep g b with
      | error e => rfl
      | ok p =>
        obtain ⟨sdr, r'⟩ := p
        simp only [ok_bind]
        apply ih
        intro s hsr
        apply h
        have hdrop : ∃ k, r' = b.drop k := by
          simp only [sdrStep, bind_eq_ok, Prod.exists] at hs
          obtain ⟨s1, r1, h1, h2⟩ := hs
          obtain ⟨_, _, _, _, _, _, _, _, _, _, k, hk⟩ := sdrHead_ok h1
          split at h2
          · simp only [bind_eq_ok, Prod.exists, pure_eq_ok, Except.ok.injEq, Prod.mk.injEq] at h2
            obtain ⟨_, r2, h3, _, _, _, rfl⟩ := h2
            obtain ⟨_, _, e⟩ := readerRead_ok h3
            rw [hk, List.drop_drop] at e
            exact ⟨_, e⟩
          · simp only [pure_eq_ok, Except.ok.injEq, Prod.mk.injEq] at h2
            rw [← h2.2]; exact ⟨k, hk⟩
        obtain ⟨k, rfl⟩ := hdrop
        have := mu_drop k b
        rcases hsr with h | ⟨h, h'⟩
        · exact .inl h
        · exact .inr ⟨by omega, by omega⟩

theorem respF_congr (env f g) (b : Bytes) (h : ∀ s, (s = [] ∨ (12 ≤ mu b ∧ mu s ≤ mu b - 13)) → f s = g s) :
    respF env f b = respF env g b := by
  unfold respF
  cases hh : SrResponse.decodeHead b with
  | error e => rfl
  | ok p =>
    obtain ⟨s, r⟩ := p
    simp only [ok_bind]
    have hr : mu r ≤ mu b - 3 := by
      simp only [SrResponse.decodeHead, bind_eq_ok, Prod.exists, pure_eq_ok, Except.ok.injEq, Prod.mk.injEq] at hh
      obtain ⟨tmp, r1, h1, st, r2, h2, _, rfl⟩ := hh
      obtain ⟨_, _, e⟩ := bufferRead_ok h1
      have := readByte_ok h2
      rw [this, zeros_length] at e
      have m := mu_drop 2 b
      rw [← e] at m
      have := mu_tail st r2
      omega
    have : sdsLoop (fun b => rdsLoop env f b.length [] b) r.length [] r
        = sdsLoop (fun b => rdsLoop env g b.length [] b) r.length [] r := by
      apply sdsLoop_congr
      intro q hq
      apply rdsLoop_congr
      intro s hs
      apply h
      rcases hs with hs | ⟨hs, hs'⟩
      · exact .inl hs
      · rcases hq with hq | ⟨hq, hq'⟩
        · subst hq; simp [mu] at hs
        · exact .inr ⟨by omega, by omega⟩
    rw [this]

theorem srRespDecode_eq (env : Env) (d : Nat) :
    srRespDecode env d = unfoldResp env (fun _ => .error .nesting) d := by
  induction d with
  | zero => funext b; rfl
  | succ d ih =>
    funext b
    simp only [srRespDecode, unfoldResp, respF, ih]

theorem unfoldResp_stable (env : Env) (f g) : ∀ (d e : Nat) (b : Bytes),
    (b = [] ∧ 1 ≤ d ∧ 1 ≤ e ∨ mu b / 12 + 2 ≤ d ∧ mu b / 12 + 2 ≤ e) →
    unfoldResp env f d b = unfoldResp env g e b := by
  intro d
  induction d with
  | zero => intro e b h; omega
  | succ d ih =>
    intro e b h
    cases e with
    | zero => omega
    | succ e =>
      simp only [unfoldResp]
      rcases h with ⟨rfl, _⟩ | ⟨h1, h2⟩
      · simp [respF, SrResponse.decodeHead, bufferRead, zeros]
      · apply respF_congr
        intro s hs
        apply ih
        rcases hs with rfl | ⟨h3, h4⟩
        · exact .inl ⟨rfl, by omega, by omega⟩
        · right; omega

end Egts
