import Verif.Proofs.Package

/-! # What holds of everything that `Decode` returns -/

namespace Egts

theorem rdsLoop_all {env : Env} {f : Bytes → Except Err SrResponse} {P : RecordData → Prop}
    (hP : ∀ t len b d, subDecode env f t len b = .ok (some d) → P ⟨t, len, some d⟩) : ∀ (n : Nat) (acc : List RecordData) (b : Bytes) (out : List RecordData),
    rdsLoop env f n acc b = .ok out → (∀ x ∈ acc, P x) → ∀ x ∈ out, P x
  | 0, acc, b, out, h, ha => by
    simp only [rdsLoop] at h
    injection h with h
    subst h
    exact ha
  | n + 1, acc, b, out, h, ha => by
    simp only [rdsLoop] at h
    split at h
    · injection h with h
      subst h
      exact ha
    · obtain ⟨⟨rd, r⟩, h1, h⟩ := bind_eq_ok.mp h
      refine rdsLoop_all hP n _ r out h ?_
      intro x hx
      rcases List.mem_append.mp hx with hx | hx
      · exact ha x hx
      · unfold rdStep at h1
        obtain ⟨⟨t, r1⟩, _, h1⟩ := bind_eq_ok.mp h1
        obtain ⟨⟨tmp, r2⟩, _, h1⟩ := bind_eq_ok.mp h1
        obtain ⟨d, hd, h1⟩ := bind_eq_ok.mp h1
        injection h1 with h1
        injection h1 with h1 _
        subst h1
        cases d with
        | none => cases hx
        | some d =>
          simp only [Option.map_some, Option.toList_some, List.mem_singleton] at hx
          subst hx
          exact hP _ _ _ _ hd

theorem sdrHead_empty {r r' : Bytes} {s : ServiceDataRecord} (h : sdrHead r = .ok (s, r')) : s.recordDataSet = [] := by
  simp only [sdrHead, bind_eq_ok, Prod.exists, pure_eq_ok, Except.ok.injEq, Prod.mk.injEq] at h
  obtain ⟨_, _, _, _, _, _, _, _, _, _, _, _, _, _, _, _, _, _, _, _, _, _, _, _, h, _⟩ := h
  subst h
  rfl

theorem sdsLoop_all {env : Env} {k : Nat} {P : RecordData → Prop} {Q : ServiceDataRecord → Prop}
    (hP : ∀ f t len b d, subDecode env f t len b = .ok (some d) → P ⟨t, len, some d⟩)
    (hQ : ∀ r s r', sdrHead r = .ok (s, r') → ∀ rds : List RecordData, (∀ x ∈ rds, P x) → Q { s with recordDataSet := rds }) :
    ∀ (n : Nat) (acc : List ServiceDataRecord) (b : Bytes) (out : List ServiceDataRecord),
    sdsLoop (rdsDecodeD env k) n acc b = .ok out → (∀ x ∈ acc, Q x) → ∀ x ∈ out, Q x
  | 0, acc, b, out, h, ha => by
    simp only [sdsLoop] at h
    injection h with h
    subst h
    exact ha
  | n + 1, acc, b, out, h, ha => by
    simp only [sdsLoop] at h
    split at h
    · injection h with h
      subst h
      exact ha
    · obtain ⟨⟨sdr, r⟩, h1, h⟩ := bind_eq_ok.mp h
      refine sdsLoop_all hP hQ n _ r out h ?_
      intro x hx
      rcases List.mem_append.mp hx with hx | hx
      · exact ha x hx
      · rw [List.mem_singleton] at hx
        subst hx
        unfold sdrStep at h1
        obtain ⟨⟨s, r1⟩, h2, h1⟩ := bind_eq_ok.mp h1
        simp only at h1
        split at h1
        · obtain ⟨⟨b', r2⟩, _, h1⟩ := bind_eq_ok.mp h1
          obtain ⟨rds, h3, h1⟩ := bind_eq_ok.mp h1
          injection h1 with h1
          injection h1 with h1 _
          subst h1
          exact hQ _ _ _ h2 rds (rdsLoop_all (hP _) _ _ _ _ h3 (by simp))
        · injection h1 with h1
          injection h1 with h1 _
          subst h1
          have := hQ _ _ _ h2 [] (by simp)
          rwa [← sdrHead_empty h2] at this

/-- A property of all records of a decoded package. -/
theorem records_all {env : Env} {key : Option SecretKey} {P : RecordData → Prop} {Q : ServiceDataRecord → Prop}
    (hP : ∀ f t len b d, subDecode env f t len b = .ok (some d) → P ⟨t, len, some d⟩)
    (hQ : ∀ r s r', sdrHead r = .ok (s, r') → ∀ rds : List RecordData, (∀ x ∈ rds, P x) → Q { s with recordDataSet := rds })
    {p q : Package} {c : Slice} {err : Option Err} (h : Package.decode env key p c = .ret q 0 err) : ∀ r ∈ q.records, Q r := by
  obtain ⟨d, hd, hq⟩ := ((decode_frame env key p c).2 _ _ _ h).2.2 rfl
  have hsd : q.servicesFrameData = some d := by rw [hq]; rfl
  unfold Package.records
  rw [hsd]
  unfold Frame.content at hd
  obtain ⟨x, hx, hd⟩ := bind_eq_ok.mp hd
  split at hd
  · obtain ⟨s, hs, hd⟩ := bind_eq_ok.mp hd
    injection hd with hd
    subst hd
    exact sdsLoop_all hP hQ _ _ _ _ hs (by simp)
  · obtain ⟨s, hs, hd⟩ := bind_eq_ok.mp hd
    injection hd with hd
    subst hd
    unfold PtResponse.decode at hs
    obtain ⟨⟨tmp, r⟩, _, hs⟩ := bind_eq_ok.mp hs
    obtain ⟨⟨pr, r⟩, _, hs⟩ := bind_eq_ok.mp hs
    simp only at hs
    split at hs
    · obtain ⟨sds, h3, hs⟩ := bind_eq_ok.mp hs
      injection hs with hs
      subst hs
      exact sdsLoop_all hP hQ _ _ _ _ h3 (by simp)
    · injection hs with hs
      subst hs
      intro r hr
      cases hr

/-! ## Encoding does not panic -/

theorem liftErr_ne {α : Type} (x : Except Err α) : liftErr x ≠ .error .panic := by cases x <;> simp [liftErr]

theorem bind_ne_panic {α β : Type} {x : Except Fault α} {f : α → Except Fault β} (hx : x ≠ .error .panic) (hf : ∀ a, f a ≠ .error .panic) :
    (x >>= f) ≠ .error .panic := by
  cases x with
  | ok a => exact hf a
  | error e => intro h; injection h with h; subst h; exact hx rfl

theorem rd_no_panic (env : Env) (rd : RecordData) (h : rd.subrecordData ≠ none) : rd.encode env ≠ .error .panic := by
  unfold RecordData.encode
  refine bind_ne_panic ?_ (fun t => ?_)
  · split
    · exact liftErr_ne _
    · intro h; cases h
  · cases hd : rd.subrecordData with
    | none => exact absurd hd h
    | some d => exact bind_ne_panic (liftErr_ne _) (fun _ h => by cases h)

theorem rds_no_panic (env : Env) : ∀ rds : List RecordData, (∀ x ∈ rds, x.subrecordData ≠ none) → RecordDataSet.encode env rds ≠ .error .panic
  | [], _ => by intro h; cases h
  | rd :: rest, h => bind_ne_panic (rd_no_panic env rd (h _ (by simp)))
      (fun _ => bind_ne_panic (rds_no_panic env rest (fun x hx => h x (by simp [hx]))) (fun _ h => by cases h))

theorem sdr_no_panic (env : Env) (s : ServiceDataRecord) (h : ∀ x ∈ s.recordDataSet, x.subrecordData ≠ none) : s.encode env ≠ .error .panic := by
  unfold ServiceDataRecord.encode
  exact bind_ne_panic (rds_no_panic env _ h) (fun _ => bind_ne_panic (liftErr_ne _) (fun _ h => by cases h))

theorem sds_no_panic (env : Env) : ∀ s : List ServiceDataRecord, (∀ r ∈ s, ∀ x ∈ r.recordDataSet, x.subrecordData ≠ none) →
    ServiceDataSet.encode env s ≠ .error .panic
  | [], _ => by intro h; cases h
  | r :: rest, h => bind_ne_panic (sdr_no_panic env r (h _ (by simp)))
      (fun _ => bind_ne_panic (sds_no_panic env rest (fun x hx => h x (by simp [hx]))) (fun _ h => by cases h))

theorem package_no_panic (env : Env) (key : Option SecretKey) (p : Package) (h : ∀ r ∈ p.records, ∀ x ∈ r.recordDataSet, x.subrecordData ≠ none) :
    (p.encode env key).2 ≠ .error .panic := by
  unfold Package.encode
  split
  · intro h; cases h
  · have hf : p.fillHL.servicesFrameData = p.servicesFrameData := by unfold Package.fillHL; split <;> rfl
    have hb : p.fillHL.bodyBytes env key ≠ .error .panic := by
      unfold Package.bodyBytes
      rw [hf]
      unfold Package.records at h
      cases hd : p.servicesFrameData with
      | none => intro h; cases h
      | some d =>
        rw [hd] at h
        refine bind_ne_panic ?_ (fun x => ?_)
        · cases d with
          | sds s => exact sds_no_panic env s h
          | resp r =>
            unfold FrameData.encode PtResponse.encode
            refine bind_ne_panic ?_ (fun _ h => by cases h)
            cases hr : r.sdr with
            | none => intro h; cases h
            | some s =>
              simp only [hr, Option.getD_some] at h
              exact sds_no_panic env s h
        · split
          · cases key with
            | none => intro h; cases h
            | some k => exact liftErr_ne _
          · intro h; cases h
    simp only
    split
    · rename_i f hb'
      intro h2
      simp only at h2
      injection h2 with h2
      subst h2
      exact hb hb'
    · intro h; cases h

end Egts
