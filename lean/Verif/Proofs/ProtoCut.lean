import Verif.Proofs.ProtoWrite

/-! # Cut EGTS+ data -/

namespace Egts
namespace Proto

theorem field_unique {f g : WField} (hf : f.Ok) (hg : g.Ok) {r s : Bytes} (h : f.bytes ++ r = g.bytes ++ s) : f = g ∧ r = s := by
  obtain ⟨t1, w1, _, _, v1⟩ := hf
  obtain ⟨t2, w2, _, _, v2⟩ := hg
  simp only [WField.bytes, List.append_assoc] at h
  have e1 := readVarint_append t1 (f.payload ++ r)
  rw [h, readVarint_append t2] at e1
  have e2 : 8 * g.num + g.wt = 8 * f.num + f.wt ∧ g.payload ++ s = f.payload ++ r := by
    simpa using e1
  have hn : g.num = f.num := by omega
  have hw : g.wt = f.wt := by omega
  rw [hn, hw] at v2
  obtain ⟨e3, e4⟩ := value_unique v2 v1 e2.2
  have ht : f.tag = g.tag := by
    have := congrArg List.length h
    rw [← e2.2] at h
    exact List.append_cancel_right h
  refine ⟨?_, e4.symm⟩
  cases f; cases g
  simp_all

theorem fields_prefix {fs gs : List WField} (hf : ∀ f ∈ fs, f.Ok) (hg : ∀ f ∈ gs, f.Ok) {r : Bytes}
    (h : fs.flatMap WField.bytes ++ r = gs.flatMap WField.bytes) : fs <+: gs := by
  induction fs generalizing gs with
  | nil => exact List.nil_prefix
  | cons f fs ih =>
    cases gs with
    | nil =>
      have := WField.ne_nil (hf f (by simp))
      have h' := congrArg List.length h
      simp only [List.flatMap_cons, List.flatMap_nil, List.length_append, List.length_nil] at h'
      omega
    | cons g gs =>
      simp only [List.flatMap_cons, List.append_assoc] at h
      obtain ⟨rfl, e⟩ := field_unique (hf f (by simp)) (hg g (by simp)) h
      rw [List.cons_prefix_cons]
      exact ⟨rfl, ih (fun x hx => hf x (by simp [hx])) (fun x hx => hg x (by simp [hx])) e⟩

/-- The fields up to the status flags. -/
def headFields (rn ts : UInt32) (rr : List UInt32) (sf : UInt32) : List WField :=
  [mkField 1 0 (putVarint rn.toNat)] ++ [mkField 2 5 (put32 ts)] ++ (rr.map fun r => mkField 3 0 (putVarint (extend r))) ++ [mkField 4 5 (put32 sf)]

theorem lastWith_isSome {fs : List WField} {num wt : Nat} : (lastWith fs num wt).isSome ↔ ∃ f ∈ fs, f.num = num ∧ f.wt = wt := by
  unfold lastWith
  rw [Option.isSome_map, Option.isSome_iff_ne_none, Ne, List.getLast?_eq_none_iff, List.filter_eq_nil_iff]
  simp only [is_iff]
  push Not
  rfl

theorem isLast_isSome {k : Kind} {o : Option Bytes} {v : Option Val} (h : k.IsLast o v) : v.isSome = o.isSome := by
  cases o with
  | none => rw [show v = none from h]; rfl
  | some p => obtain ⟨x, rfl, _⟩ := h; rfl

theorem messageFields_nil : messageFields 7 schemas (schemas.map fun _ => []) = [] := by decide

/-- The record without sensors. -/
theorem headFields_bytes (rn ts : UInt32) (rr : List UInt32) (sf : UInt32) :
    marshal { recordNumber := some rn, timeStamp := some ts, recordReason := rr, statusFlags := some sf } =
      some ((headFields rn ts rr sf).flatMap WField.bytes) := by
  simp only [marshal]
  rw [recordFields_bytes, List.append_nil]
  congr 2
  unfold recordFields headFields
  rw [messageFields_nil, List.append_nil]

theorem cut_iff {m : StorageRecord} (h : m.Valid) {b : Bytes} (hb : marshal m = some b) (n : Nat) :
    (∃ m', unmarshal (b.take n) = some m') ↔
      (∃ fs : List WField, (∀ f ∈ fs, f.Ok) ∧ b.take n = fs.flatMap WField.bytes) ∧
      ∃ hd, marshal { m with sens := ({} : StorageRecord).sens, unknown := [] } = some hd ∧ hd.length ≤ n := by
  obtain ⟨rn, ts, sf, us, h1, h2, h3, hm, hok, hd⟩ := marshal_fields h
  rw [hb] at hm
  cases hm
  have hsplit : ∃ rest, recordFields rn ts m.recordReason sf m.sens ++ us = headFields rn ts m.recordReason sf ++ rest :=
    ⟨messageFields 7 schemas m.sens ++ us, by simp [recordFields, headFields]⟩
  obtain ⟨rest, hs⟩ := hsplit
  rw [hs] at hok hd hb ⊢
  have hhead : marshal { m with sens := ({} : StorageRecord).sens, unknown := [] } =
      some ((headFields rn ts m.recordReason sf).flatMap WField.bytes) := by
    rw [← headFields_bytes]
    congr 1
    cases m
    simp_all
  generalize hb' : (headFields rn ts m.recordReason sf ++ rest).flatMap WField.bytes = b at *
  have key : ∀ fs : List WField, (∀ f ∈ fs, f.Ok) → b.take n = fs.flatMap WField.bytes → fs <+: headFields rn ts m.recordReason sf ++ rest := by
    intro fs hfs e
    refine fields_prefix hfs hok (r := b.drop n) ?_
    rw [← e, List.take_append_drop, hb']
  have two : ∀ fs : List WField, fs <+: headFields rn ts m.recordReason sf ++ rest →
      headFields rn ts m.recordReason sf <+: fs ∨ fs <+: (headFields rn ts m.recordReason sf).dropLast := by
    intro fs hp
    rcases Nat.lt_or_ge fs.length (headFields rn ts m.recordReason sf).length with hl | hl
    · right
      have : fs <+: headFields rn ts m.recordReason sf := List.prefix_of_prefix_length_le hp (List.prefix_append _ _) (by omega)
      exact List.prefix_of_prefix_length_le this (List.dropLast_prefix _) (by rw [List.length_dropLast]; omega)
    · left
      exact List.prefix_of_prefix_length_le (List.prefix_append _ _) hp hl
  have hdl : (headFields rn ts m.recordReason sf).dropLast = [mkField 1 0 (putVarint rn.toNat)] ++ [mkField 2 5 (put32 ts)] ++
      (m.recordReason.map fun r => mkField 3 0 (putVarint (extend r))) := by
    unfold headFields
    rw [List.dropLast_concat]
  constructor
  · rintro ⟨m', hm'⟩
    obtain ⟨⟨fs, hfs, e, hden⟩, _, _, r3⟩ := (unmarshalRecord_iff _ _).mp hm'
    refine ⟨⟨fs, hfs, e⟩, _, hhead, ?_⟩
    rcases two fs (key fs hfs e) with ⟨t, ht⟩ | hp
    · have := congrArg List.length e
      rw [← ht, List.flatMap_append, List.length_append, List.length_take] at this
      omega
    · exfalso
      have h4 := isLast_isSome hden.statusFlags
      rw [Option.isSome_map, r3] at h4
      obtain ⟨f, hf, e1, e2⟩ := lastWith_isSome.mp h4.symm
      have := hp.subset hf
      rw [hdl] at this
      simp only [List.mem_append, List.mem_singleton, List.mem_map] at this
      rcases this with (rfl | rfl) | ⟨r, _, rfl⟩ <;> simp [mkField] at e1
  · rintro ⟨⟨fs, hfs, e⟩, hd', hh, hl⟩
    rw [hhead] at hh
    cases hh
    have hp := key fs hfs e
    have hin : headFields rn ts m.recordReason sf <+: fs := by
      rcases two fs hp with h' | ⟨t, h'⟩
      · exact h'
      · exfalso
        have l1 := congrArg List.length e
        have hcat : (headFields rn ts m.recordReason sf) = (headFields rn ts m.recordReason sf).dropLast ++ [mkField 4 5 (put32 sf)] := by
          rw [hdl]; rfl
        have hst : 2 ≤ (mkField 4 5 (put32 sf)).bytes.length := WField.ne_nil (hok _ (by rw [hcat]; simp))
        have l2 : ((headFields rn ts m.recordReason sf).flatMap WField.bytes).length ≤ b.length := by
          rw [← hb', List.flatMap_append, List.length_append]; omega
        rw [hcat, ← h', List.flatMap_append, List.flatMap_append, List.length_append, List.length_append] at hl l2
        simp only [List.flatMap_cons, List.flatMap_nil, List.append_nil] at hl l2
        rw [List.length_take] at l1
        omega
    have hgood := denoted_good hok hd
    obtain ⟨m', hm'⟩ := recRun_some fs (fun f hf hk => hgood f (hp.subset hf) hk)
    have hden := recRun_denoted fs m' hm'
    refine ⟨m', (unmarshalRecord_iff _ _).mpr ⟨⟨fs, hfs, e, hden⟩, ?_, ?_, ?_⟩⟩
    · have := isLast_isSome hden.recordNumber
      rw [Option.isSome_map] at this
      rw [this]
      exact lastWith_isSome.mpr ⟨mkField 1 0 (putVarint rn.toNat), hin.subset (by simp [headFields]), rfl, rfl⟩
    · have := isLast_isSome hden.timeStamp
      rw [Option.isSome_map] at this
      rw [this]
      exact lastWith_isSome.mpr ⟨mkField 2 5 (put32 ts), hin.subset (by simp [headFields]), rfl, rfl⟩
    · have := isLast_isSome hden.statusFlags
      rw [Option.isSome_map] at this
      rw [this]
      exact lastWith_isSome.mpr ⟨mkField 4 5 (put32 sf), hin.subset (by simp [headFields]), rfl, rfl⟩

end Proto
end Egts
