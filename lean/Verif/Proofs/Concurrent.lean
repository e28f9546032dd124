import Verif.Spec.Concurrent

/-! # Lemmas on packages that are encoded by several goroutines at once -/

namespace Egts

theorem fillHL_after (p : Package) : p.fillHL = { p with headerLength := p.hlAfter } := by
  unfold Package.fillHL Package.hlAfter
  by_cases h : p.headerLength = 0
  · rw [if_pos h, if_pos h]
    rfl
  · rw [if_neg h, if_neg h]

/-- `Encode` alone, written out. -/
theorem encode_alone (env : Env) (key : Option SecretKey) (p : Package) :
    p.encode env key =
      match parseFlags (p.prefix_ ++ p.route ++ p.encryptionAlg ++ p.compression ++ p.priority) with
      | .error e => (p, .error (.err e))
      | .ok flags =>
        match p.bodyBytes env key with
        | .error f => ({ p with headerLength := p.hlAfter }, .error f)
        | .ok sfrd =>
          let q : Package := { p with headerLength := p.hlAfter, frameDataLength := UInt16.ofNat sfrd.length }
          let out := q.headBytes flags ++ [crc8 (q.headBytes flags)]
          (q, .ok (if q.frameDataLength > 0 then out ++ sfrd ++ put16 (crc16 sfrd) else out)) := by
  unfold Package.encode
  rw [fillHL_after]
  cases parseFlags (p.prefix_ ++ p.route ++ p.encryptionAlg ++ p.compression ++ p.priority) with
  | error e => rfl
  | ok flags =>
    have : ({ p with headerLength := p.hlAfter } : Package).bodyBytes env key = p.bodyBytes env key := rfl
    simp only [this]
    cases p.bodyBytes env key <;> rfl

theorem frameWith_alone (env : Env) (key : Option SecretKey) (p : Package) : frameWith env key p p.hlAfter = (p.encode env key).2 := by
  rw [encode_alone]
  unfold frameWith
  cases parseFlags (p.prefix_ ++ p.route ++ p.encryptionAlg ++ p.compression ++ p.priority) with
  | error e => rfl
  | ok flags => cases p.bodyBytes env key <;> rfl

theorem sameLength_of_key (env : Env) (key : Option SecretKey) (p : Package) : SameLength env (fun _ => key) p := by
  intro i j a b ha hb
  rw [ha] at hb
  cases hb
  rfl

/-! ## The invariant -/

/-- What is known of a goroutine at each point. `ok h` is what is known of a header length that has been or will be written to a frame. -/
def EncAt.Good (env : Env) (key : Option SecretKey) (p : Package) (ok : UInt8 → Prop) (m : EncMem) : EncAt → Prop
  | .start => True
  | .testHL flags | .loadHL flags | .storeHL flags _ | .writeHL flags | .setHL flags =>
    parseFlags (p.prefix_ ++ p.route ++ p.encryptionAlg ++ p.compression ++ p.priority) = .ok flags
  | .body flags h => parseFlags (p.prefix_ ++ p.route ++ p.encryptionAlg ++ p.compression ++ p.priority) = .ok flags ∧ ok h
  | .setFDL flags h sfrd =>
    parseFlags (p.prefix_ ++ p.route ++ p.encryptionAlg ++ p.compression ++ p.priority) = .ok flags ∧ ok h ∧ p.bodyBytes env key = .ok sfrd
  | .writeFDL flags h sfrd =>
    parseFlags (p.prefix_ ++ p.route ++ p.encryptionAlg ++ p.compression ++ p.priority) = .ok flags ∧ ok h ∧ p.bodyBytes env key = .ok sfrd ∧
      m.fdl = UInt16.ofNat sfrd.length
  | .testFDL flags h sfrd fdl =>
    parseFlags (p.prefix_ ++ p.route ++ p.encryptionAlg ++ p.compression ++ p.priority) = .ok flags ∧ ok h ∧ p.bodyBytes env key = .ok sfrd ∧
      m.fdl = UInt16.ofNat sfrd.length ∧ fdl = UInt16.ofNat sfrd.length
  | .done r => (∃ h b, ok h ∧ r = frameWith env key p h ∧ p.bodyBytes env key = .ok b ∧ m.fdl = UInt16.ofNat b.length) ∨
      ((∃ f, r = .error f) ∧ ∀ h, r = frameWith env key p h)

/-- What is known of the header length in the package while a goroutine is at that point, if no goroutine adds to it. -/
def EncAt.HL (p : Package) (m : EncMem) : EncAt → Prop
  | .start | .testHL _ => True
  | .setHL _ => p.headerLength = 0
  | .loadHL _ | .storeHL _ _ => False
  | .done r => ∀ out, r = .ok out → m.hl = p.hlAfter
  | _ => m.hl = p.hlAfter

section
variable (env : Env) (keys : Nat → Option SecretKey) (p : Package)

theorem good_mem {ok : UInt8 → Prop} {key : Option SecretKey} {m m' : EncMem} (hfdl : ∀ b, p.bodyBytes env key = .ok b → m.fdl = UInt16.ofNat b.length →
    m'.fdl = UInt16.ofNat b.length) {a : EncAt} (h : a.Good env key p ok m) : a.Good env key p ok m' := by
  cases a <;> simp only [EncAt.Good] at h ⊢ <;> try exact h
  · exact ⟨h.1, h.2.1, h.2.2.1, hfdl _ h.2.2.1 h.2.2.2⟩
  · exact ⟨h.1, h.2.1, h.2.2.1, hfdl _ h.2.2.1 h.2.2.2.1, h.2.2.2.2⟩
  · rcases h with ⟨x, b, h1, h2, h3, h4⟩ | h
    · exact .inl ⟨x, b, h1, h2, h3, hfdl _ h3 h4⟩
    · exact .inr h

/-- A step keeps what is known of the goroutine that takes it. -/
theorem good_step {ok : UInt8 → Prop} {key : Option SecretKey} {m : EncMem} {a : EncAt} (h : a.Good env key p ok m)
    (hw : ∀ flags, a = .writeHL flags → ok m.hl) :
    (a.step env key p m).2.Good env key p ok (a.step env key p m).1 := by
  cases a with
  | start =>
    simp only [EncAt.step]
    cases hf : parseFlags (p.prefix_ ++ p.route ++ p.encryptionAlg ++ p.compression ++ p.priority) with
    | error e =>
      refine .inr ⟨⟨_, rfl⟩, fun h => ?_⟩
      unfold frameWith
      rw [hf]
    | ok flags => exact hf
  | testHL flags =>
    simp only [EncAt.step]
    split <;> exact h
  | setHL flags =>
    simp only [EncAt.step]
    split <;> exact h
  | loadHL flags => exact h
  | storeHL flags v => exact h
  | writeHL flags => exact ⟨h, hw flags rfl⟩
  | body flags hl =>
    simp only [EncAt.step]
    cases hb : p.bodyBytes env key with
    | error f =>
      refine .inr ⟨⟨_, rfl⟩, fun h' => ?_⟩
      unfold frameWith
      rw [h.1, hb]
    | ok sfrd => exact ⟨h.1, h.2, hb⟩
  | setFDL flags hl sfrd => exact ⟨h.1, h.2.1, h.2.2, rfl⟩
  | writeFDL flags hl sfrd => exact ⟨h.1, h.2.1, h.2.2.1, h.2.2.2, h.2.2.2⟩
  | testFDL flags hl sfrd fdl =>
    obtain ⟨h1, h2, h3, h4, rfl⟩ := h
    refine .inl ⟨hl, sfrd, h2, ?_, h3, h4⟩
    unfold frameWith
    rw [h1, h3]
    simp only [h4]
  | done r => exact h

/-- A step changes the length of the frame data only to that of the body of the goroutine. -/
theorem step_fdl {ok : UInt8 → Prop} {key : Option SecretKey} {m : EncMem} {a : EncAt} (h : a.Good env key p ok m) :
    (a.step env key p m).1.fdl = m.fdl ∨ ∃ b, p.bodyBytes env key = .ok b ∧ (a.step env key p m).1.fdl = UInt16.ofNat b.length := by
  cases a with
  | start => simp only [EncAt.step]; split <;> exact .inl rfl
  | testHL flags => simp only [EncAt.step]; split <;> exact .inl rfl
  | body flags hl => simp only [EncAt.step]; split <;> exact .inl rfl
  | setFDL flags hl sfrd => exact .inr ⟨sfrd, h.2.2, rfl⟩
  | setHL flags => exact .inl rfl
  | loadHL flags => exact .inl rfl
  | storeHL flags v => exact .inl rfl
  | writeHL flags => exact .inl rfl
  | writeFDL flags hl sfrd => exact .inl rfl
  | testFDL flags hl sfrd fdl => exact .inl rfl
  | done r => exact .inl rfl

theorem good_exec (hs : SameLength env keys p) (ok : UInt8 → Prop) (inv : Encoders → Prop)
    (hinv : ∀ s i, inv s → inv (s.step env keys p i)) (hok : ∀ s i flags, inv s → s.pos i = .writeHL flags → ok s.mem.hl) :
    ∀ (sched : List Nat) (s : Encoders), inv s → (∀ i, (s.pos i).Good env (keys i) p ok s.mem) →
      ∀ i, ((s.run env keys p sched).pos i).Good env (keys i) p ok (s.run env keys p sched).mem := by
  intro sched
  induction sched with
  | nil => intro s _ h; exact h
  | cons k sched ih =>
    intro s hi h
    refine ih (s.step env keys p k) (hinv s k hi) fun j => ?_
    by_cases hj : j = k
    · subst hj
      simp only [Encoders.step, if_true]
      exact good_step env p (h j) fun flags e => hok s j flags hi e
    · simp only [Encoders.step, if_neg hj]
      refine good_mem env p (fun b hb hm => ?_) (h j)
      rcases step_fdl env p (h k) with h0 | ⟨b', hb', h0⟩
      · rw [h0, hm]
      · rw [h0]
        exact hs _ _ _ _ hb' hb

/-- The header length, if no goroutine adds to it. -/
def Encoders.HLInv (p : Package) (s : Encoders) : Prop :=
  (s.mem.hl = p.headerLength ∨ s.mem.hl = p.hlAfter) ∧ ∀ i, (s.pos i).HL p s.mem

theorem hlAfter_of (hp : p.headerLength ≠ 0 ∨ p.route ≠ go!"1") : p.hlAfter = if p.headerLength = 0 then 11 else p.headerLength := by
  unfold Package.hlAfter
  by_cases h : p.headerLength = 0
  · rw [if_pos h, if_pos h, if_neg (hp.resolve_left fun h' => h' h)]
  · rw [if_neg h, if_neg h]

theorem hlAfter_ne (p : Package) : p.hlAfter ≠ 0 := by
  unfold Package.hlAfter
  by_cases h : p.headerLength = 0
  · rw [if_pos h]
    split <;> decide
  · rw [if_neg h]
    exact h

theorem hlInv_step (hp : p.headerLength ≠ 0 ∨ p.route ≠ go!"1") (s : Encoders) (i : Nat) (h : s.HLInv p) : (s.step env keys p i).HLInv p := by
  obtain ⟨hm, ha⟩ := h
  -- the header length afterwards
  have key : ((s.pos i).step env (keys i) p s.mem).1.hl = s.mem.hl ∨ ((s.pos i).step env (keys i) p s.mem).1.hl = p.hlAfter := by
    have hi := ha i
    cases hpos : s.pos i with
    | start => simp only [EncAt.step]; split <;> exact .inl rfl
    | testHL flags => simp only [EncAt.step]; split <;> exact .inl rfl
    | body flags hl => simp only [EncAt.step]; split <;> exact .inl rfl
    | setHL flags =>
      rw [hpos] at hi
      have hz : p.headerLength = 0 := hi
      right
      rw [hlAfter_of p hp, if_pos hz]
      rfl
    | loadHL flags => exact .inl rfl
    | storeHL flags v => rw [hpos] at hi; exact hi.elim
    | writeHL flags => exact .inl rfl
    | setFDL flags hl sfrd => exact .inl rfl
    | writeFDL flags hl sfrd => exact .inl rfl
    | testFDL flags hl sfrd fdl => exact .inl rfl
    | done r => exact .inl rfl
  refine ⟨?_, fun j => ?_⟩
  · simp only [Encoders.step]
    rcases key with k | k
    · rw [k]; exact hm
    · exact .inr k
  · by_cases hj : j = i
    · subst hj
      simp only [Encoders.step, if_true]
      have hi := ha j
      cases hpos : s.pos j with
      | start =>
        simp only [EncAt.step]
        split
        · intro _ h; cases h
        · exact trivial
      | testHL flags =>
        simp only [EncAt.step]
        by_cases h0 : s.mem.hl = 0
        · rw [if_pos h0]
          show p.headerLength = 0
          exact (hm.resolve_right fun h' => hlAfter_ne p (h' ▸ h0)) ▸ h0
        · rw [if_neg h0]
          show s.mem.hl = p.hlAfter
          rcases hm with hm | hm
          · rw [hlAfter_of p hp, if_neg (hm ▸ h0)]
            exact hm
          · exact hm
      | setHL flags =>
        rw [hpos] at hi
        have hr : p.route ≠ go!"1" := hp.resolve_left fun h' => h' hi
        have hr' : p.route ≠ one := hr
        simp only [EncAt.step, if_neg hr']
        show (11 : UInt8) = p.hlAfter
        have hz : p.headerLength = 0 := hi
        rw [hlAfter_of p hp, if_pos hz]
      | loadHL flags => rw [hpos] at hi; exact hi.elim
      | storeHL flags v => rw [hpos] at hi; exact hi.elim
      | body flags hl =>
        rw [hpos] at hi
        simp only [EncAt.step]
        split
        · intro _ h; cases h
        · exact hi
      | writeHL flags => rw [hpos] at hi; exact hi
      | setFDL flags hl sfrd => rw [hpos] at hi; exact hi
      | writeFDL flags hl sfrd => rw [hpos] at hi; exact hi
      | testFDL flags hl sfrd fdl => rw [hpos] at hi; exact fun _ _ => hi
      | done r => rw [hpos] at hi; exact hi
    · simp only [Encoders.step, if_neg hj]
      have hi := ha j
      have keep : s.mem.hl = p.hlAfter → ((s.pos i).step env (keys i) p s.mem).1.hl = p.hlAfter := fun h =>
        key.elim (fun k => k.trans h) id
      cases hpos : s.pos j with
      | start => exact trivial
      | testHL flags => exact trivial
      | setHL flags => rw [hpos] at hi; exact hi
      | loadHL flags => rw [hpos] at hi; exact hi.elim
      | storeHL flags v => rw [hpos] at hi; exact hi.elim
      | done r => rw [hpos] at hi; exact fun out e => keep (hi out e)
      | writeHL flags => rw [hpos] at hi; exact keep hi
      | body flags hl => rw [hpos] at hi; exact keep hi
      | setFDL flags hl sfrd => rw [hpos] at hi; exact keep hi
      | writeFDL flags hl sfrd => rw [hpos] at hi; exact keep hi
      | testFDL flags hl sfrd fdl => rw [hpos] at hi; exact keep hi

theorem hlInv_init (p : Package) : (Encoders.init p).HLInv p := ⟨.inl rfl, fun _ => trivial⟩

theorem hlInv_run (hp : p.headerLength ≠ 0 ∨ p.route ≠ go!"1") (sched : List Nat) : ∀ s : Encoders, s.HLInv p → (s.run env keys p sched).HLInv p := by
  induction sched with
  | nil => intro s h; exact h
  | cons k sched ih => intro s h; exact ih _ (hlInv_step env keys p hp s k h)

/-- How many more steps a goroutine takes at most. -/
def EncAt.rank : EncAt → Nat
  | .start => 10
  | .testHL _ => 9
  | .setHL _ => 8
  | .loadHL _ => 7
  | .storeHL _ _ => 6
  | .writeHL _ => 5
  | .body _ _ => 4
  | .setFDL _ _ _ => 3
  | .writeFDL _ _ _ => 2
  | .testFDL _ _ _ _ => 1
  | .done _ => 0

theorem rank_step (key : Option SecretKey) (m : EncMem) (a : EncAt) : (a.step env key p m).2.rank ≤ a.rank - 1 := by
  cases a <;> simp only [EncAt.step] <;> (try split) <;> simp [EncAt.rank]

theorem rank_run (i : Nat) (sched : List Nat) : ∀ s : Encoders, ((s.run env keys p sched).pos i).rank ≤ (s.pos i).rank - sched.count i := by
  induction sched with
  | nil => intro s; simp [Encoders.run]
  | cons k sched ih =>
    intro s
    have h := ih (s.step env keys p k)
    rw [show s.run env keys p (k :: sched) = (s.step env keys p k).run env keys p sched from rfl]
    by_cases hk : i = k
    · subst hk
      have h2 := rank_step env p (keys i) s.mem (s.pos i)
      have h3 : ((s.step env keys p i).pos i).rank ≤ (s.pos i).rank - 1 := by
        simp only [Encoders.step, if_true]
        exact h2
      rw [List.count_cons_self]
      omega
    · have h3 : (s.step env keys p k).pos i = s.pos i := by simp only [Encoders.step, if_neg hk]
      rw [h3] at h
      rw [List.count_cons_of_ne (Ne.symm hk)]
      exact h

end

theorem step_env {env env' : Env} {key : Option SecretKey} {p : Package} (h : p.bodyBytes env key = p.bodyBytes env' key) (m : EncMem) (a : EncAt) :
    a.step env key p m = a.step env' key p m := by
  cases a with
  | body flags hl => unfold EncAt.step; rw [h]
  | start => rfl
  | testHL flags => rfl
  | setHL flags => rfl
  | loadHL flags => rfl
  | storeHL flags v => rfl
  | writeHL flags => rfl
  | setFDL flags hl sfrd => rfl
  | writeFDL flags hl sfrd => rfl
  | testFDL flags hl sfrd fdl => rfl
  | done r => rfl

theorem run_env {env env' : Env} {keys : Nat → Option SecretKey} {p : Package} (h : ∀ i, p.bodyBytes env (keys i) = p.bodyBytes env' (keys i))
    (sched : List Nat) : ∀ s : Encoders, s.run env keys p sched = s.run env' keys p sched := by
  induction sched with
  | nil => intro s; rw [Encoders.run, Encoders.run, List.foldl_nil, List.foldl_nil]
  | cons k sched ih =>
    intro s
    have hk : s.step env keys p k = s.step env' keys p k :=
      congrArg (fun r : EncMem × EncAt => ({ mem := r.1, pos := fun j => if j = k then r.2 else s.pos j } : Encoders)) (step_env (h k) s.mem (s.pos k))
    have := ih (s.step env keys p k)
    unfold Encoders.run at this ⊢
    rw [List.foldl_cons, List.foldl_cons, this, hk]

end Egts
