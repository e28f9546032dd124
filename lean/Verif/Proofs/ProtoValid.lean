import Verif.Proofs.ProtoWrite

/-! # Unmarshalled records can be marshalled -/

namespace Egts

namespace Proto

theorem putVarintN_shortest (p : Bytes) (hp : p ≠ []) (k : Nat) : (putVarintN k (base128 p)).length ≤ p.length := by
  induction p generalizing k with
  | nil => exact absurd rfl hp
  | cons c b ih =>
    cases k with
    | zero => simp [putVarintN]
    | succ k =>
      have hv : base128 (c :: b) = c.toNat % 128 + 128 * base128 b := rfl
      generalize base128 (c :: b) = v at hv
      simp only [putVarintN]
      by_cases hlt : v < 128
      · rw [if_pos hlt]
        simp
      · rw [if_neg hlt]
        have hb : b ≠ [] := by
          rintro rfl
          simp only [base128] at hv
          omega
        have e : v / 128 = base128 b := by omega
        rw [e]
        have := ih hb k
        simp only [List.length_cons]
        omega

theorem putVarint_shortest {n : Nat} {p : Bytes} (h : IsVarint n p) : (putVarint n).length ≤ p.length := by
  obtain ⟨i, l, rfl, _, _, _, rfl, _⟩ := h
  exact putVarintN_shortest _ (by simp) 10

theorem canon_length {f : WField} (h : f.Ok) : f.canon.length ≤ f.bytes.length := by
  have := putVarint_shortest h.1
  simp only [WField.canon, WField.bytes, putTag, List.length_append]
  omega

theorem flatMap_length_le {α : Type} {l : List α} {f g : α → Bytes} (h : ∀ a ∈ l, (f a).length ≤ (g a).length) (q : α → Bool) :
    ((l.filter q).flatMap f).length ≤ (l.flatMap g).length := by
  induction l with
  | nil => simp
  | cons a l ih =>
    have h1 := ih fun a ha => h a (by simp [ha])
    have h2 := h a (by simp)
    cases hq : q a with
    | false =>
      rw [List.filter_cons_of_neg (by simp [hq]), List.flatMap_cons, List.length_append]
      omega
    | true =>
      rw [List.filter_cons_of_pos hq, List.flatMap_cons, List.flatMap_cons, List.length_append, List.length_append]
      omega

theorem bytes_length_le {fs : List WField} {f : WField} (h : f ∈ fs) : f.bytes.length ≤ (fs.flatMap WField.bytes).length := by
  induction fs with
  | nil => cases h
  | cons g fs ih =>
    rw [List.flatMap_cons, List.length_append]
    rcases List.mem_cons.mp h with rfl | h
    · omega
    · have := ih h
      omega

theorem payload_length_le {fs : List WField} {f : WField} (h : f ∈ fs) : f.payload.length ≤ (fs.flatMap WField.bytes).length := by
  have := bytes_length_le h
  have h2 : f.bytes.length = f.tag.length + f.payload.length := List.length_append
  omega

theorem unknownOk_of {knows : WField → Bool} (hk : ∀ f g : WField, f.num = g.num → f.wt = g.wt → knows f = knows g) {fs : List WField}
    (hfs : ∀ f ∈ fs, f.Ok) (hl : (fs.flatMap WField.bytes).length < 2 ^ 32) :
    UnknownOk knows ((fs.filter fun f => !knows f).flatMap WField.canon) := by
  refine ⟨?_, (fs.filter fun f => !knows f).map fun f => mkField f.num f.wt f.payload, ?_, ?_⟩
  · exact Nat.lt_of_le_of_lt (flatMap_length_le (fun f hf => canon_length (hfs f hf)) fun f => !knows f) hl
  · intro g hg
    obtain ⟨f, hf, rfl⟩ := List.mem_map.mp hg
    obtain ⟨hf, hq⟩ := List.mem_filter.mp hf
    obtain ⟨_, _, h3, h4, h5⟩ := hfs f hf
    refine ⟨mkField_ok h3 h4 h5, ?_, rfl⟩
    rw [hk (mkField f.num f.wt f.payload) f rfl rfl]
    simpa using hq
  · rw [List.flatMap_def, List.flatMap_def, List.map_map]
    rfl

theorem lastWith_mem {fs : List WField} {num wt : Nat} {p : Bytes} (h : lastWith fs num wt = some p) : ∃ f ∈ fs, f.payload = p := by
  unfold lastWith at h
  rw [Option.map_eq_some_iff] at h
  obtain ⟨f, hf, rfl⟩ := h
  exact ⟨f, (List.mem_filter.mp (List.mem_of_getLast? hf)).1, rfl⟩

theorem means_typed {k : Kind} {p : Bytes} {v : Val} (h : k.Means p v) (hl : p.length < 2 ^ 32) : v.Typed k := by
  cases k with
  | uint32 => obtain ⟨n, hp, rfl⟩ := h; trivial
  | sint32 => obtain ⟨n, x, hp, hx, rfl⟩ := h; trivial
  | bool => obtain ⟨n, hp, rfl⟩ := h; trivial
  | fixed32 => obtain ⟨a, b, c, d, rfl, rfl⟩ := h; trivial
  | bytes =>
    obtain ⟨hh, d, rfl, hd, rfl⟩ := h
    rw [List.length_append] at hl
    show d.length < 2 ^ 32
    omega

theorem isMessage_valid {sch : Schema} {b : Bytes} {s : Sens} (h : IsMessage sch b s) (hl : b.length < 2 ^ 32) : s.Valid sch := by
  obtain ⟨fs, hfs, rfl, hd⟩ := h
  refine ⟨hd.length, ?_, ?_⟩
  · intro i f v h1 h2
    have := hd.vals i f (some v) h1 h2
    cases hlw : lastWith fs f.num f.kind.wire with
    | none => rw [hlw] at this; cases this
    | some p =>
      rw [hlw] at this
      obtain ⟨x, hx, hm⟩ := this
      cases hx
      obtain ⟨g, hg, rfl⟩ := lastWith_mem hlw
      have := payload_length_le hg
      exact means_typed hm (by omega)
  · rw [hd.unknown]
    refine unknownOk_of ?_ hfs hl
    intro f g h1 h2
    rw [knows_eq, knows_eq, h1, h2]

theorem forall₂_mem_right {α β : Type} {R : α → β → Prop} {l : List α} {l' : List β} (h : List.Forall₂ R l l') {b : β} (hb : b ∈ l') : ∃ a ∈ l, R a b := by
  induction h with
  | nil => cases hb
  | cons h1 _ ih =>
    rcases List.mem_cons.mp hb with rfl | hb
    · exact ⟨_, by simp, h1⟩
    · obtain ⟨a, ha, hab⟩ := ih hb
      exact ⟨a, by simp [ha], hab⟩

theorem unmarshal_valid {b : Bytes} {m : StorageRecord} (h : unmarshal b = some m) (hl : b.length < 2 ^ 32) : m.Valid := by
  obtain ⟨⟨fs, hfs, rfl, hd⟩, h1, h2, h3⟩ := (unmarshalRecord_iff b m).mp h
  refine ⟨h1, h2, h3, hd.length, ?_, ?_⟩
  · intro i sch ms e1 e2 s hs
    obtain ⟨f, hf, hh, d, e, _, hm⟩ := forall₂_mem_right (hd.sens i sch ms e1 e2) hs
    have := payload_length_le (List.mem_filter.mp hf).1
    rw [e, List.length_append] at this
    exact isMessage_valid hm (by omega)
  · rw [hd.unknown]
    refine unknownOk_of ?_ hfs hl
    intro f g h1 h2
    rw [recordKnows_eq, recordKnows_eq, h1, h2]

/-! ## The order of the fields -/

theorem messageFields_sorted (num : Nat) (schs : List Schema) (mss : List (List Sens)) :
    ((messageFields num schs mss).map (·.num)).Pairwise (· ≤ ·) := by
  induction schs generalizing num mss with
  | nil => simp [messageFields]
  | cons sch schs ih =>
    cases mss with
    | nil => simp [messageFields]
    | cons ms mss =>
      simp only [messageFields, List.map_append, List.pairwise_append]
      refine ⟨?_, ih _ _, ?_⟩
      · rw [List.map_map]
        have e : (WField.num ∘ fun s : Sens => mkField num 2 (putVarint (s.marshal sch).length ++ s.marshal sch)) = fun _ => num := rfl
        show (List.map (WField.num ∘ fun s : Sens => mkField num 2 (putVarint (s.marshal sch).length ++ s.marshal sch)) ms).Pairwise _
        rw [e, List.map_const', List.pairwise_replicate]
        exact .inr (Nat.le_refl _)
      · intro a ha b hb
        obtain ⟨f, hf, rfl⟩ := List.mem_map.mp ha
        obtain ⟨s, _, rfl⟩ := List.mem_map.mp hf
        obtain ⟨g, hg, rfl⟩ := List.mem_map.mp hb
        obtain ⟨i, _, _, _, _, _, _, rfl⟩ := messageFields_mem hg
        show num ≤ num + 1 + i
        omega

theorem marshal_order {m : StorageRecord} (h : m.Valid) : ∃ (b : Bytes) (fs : List WField), marshal m = some b ∧
    b = fs.flatMap WField.bytes ++ m.unknown ∧ (fs.map (·.num)).Pairwise (· ≤ ·) ∧
    ∀ f ∈ fs, f.Ok ∧ recordKnows f = true ∧ ∀ t, IsVarint (8 * f.num + f.wt) t → f.tag.length ≤ t.length := by
  obtain ⟨rn, h1⟩ := Option.isSome_iff_exists.mp h.recordNumber
  obtain ⟨ts, h2⟩ := Option.isSome_iff_exists.mp h.timeStamp
  obtain ⟨sf, h3⟩ := Option.isSome_iff_exists.mp h.statusFlags
  refine ⟨_, recordFields rn ts m.recordReason sf m.sens, by simp only [marshal, h1, h2, h3]; rfl, by rw [recordFields_bytes], ?_, ?_⟩
  · have hm : ∀ g ∈ messageFields 7 schemas m.sens, 7 ≤ g.num := by
      intro g hg
      obtain ⟨i, _, _, _, _, _, _, rfl⟩ := messageFields_mem hg
      show 7 ≤ 7 + i
      omega
    have hr : ∀ g ∈ (m.recordReason.map fun r => mkField 3 0 (putVarint (extend r))), g.num = 3 := by
      intro g hg
      obtain ⟨r, _, rfl⟩ := List.mem_map.mp hg
      rfl
    have hrs : ((m.recordReason.map fun r => mkField 3 0 (putVarint (extend r))).map (·.num)).Pairwise (· ≤ ·) := by
      rw [List.pairwise_map]
      exact List.pairwise_of_forall_mem_list fun a ha b hb => by rw [hr a ha, hr b hb]
    rw [List.pairwise_map] at hrs ⊢
    have hms := messageFields_sorted 7 schemas m.sens
    rw [List.pairwise_map] at hms
    unfold recordFields
    simp only [List.pairwise_append, List.mem_append, List.mem_singleton, hrs, hms, List.pairwise_singleton, true_and]
    refine ⟨⟨⟨?_, ?_⟩, ?_⟩, ?_⟩
    · rintro a rfl b rfl
      show 1 ≤ 2
      omega
    · rintro a (rfl | rfl) b hb
      · rw [hr b hb]; show 1 ≤ 3; omega
      · rw [hr b hb]; show 2 ≤ 3; omega
    · rintro a ((rfl | rfl) | ha) b rfl
      · show 1 ≤ 4; omega
      · show 2 ≤ 4; omega
      · rw [hr a ha]; show 3 ≤ 4; omega
    · rintro a (((rfl | rfl) | ha) | rfl) b hb
      · have := hm b hb; show 1 ≤ _; omega
      · have := hm b hb; show 2 ≤ _; omega
      · have := hm b hb; rw [hr a ha]; omega
      · have := hm b hb; show 4 ≤ _; omega
  · intro g hg
    have hrn := rn.toNat_lt
    have mk : ∀ num wt p, 1 ≤ num → num < 2 ^ 29 → IsValue num wt p → recordHas num wt = true →
        (mkField num wt p).Ok ∧ recordKnows (mkField num wt p) = true ∧ ∀ t, IsVarint (8 * num + wt) t → (putTag num wt).length ≤ t.length := by
      intro num wt p a1 a2 a3 a4
      exact ⟨mkField_ok a1 a2 a3, by rw [recordKnows_eq]; exact a4, fun t ht => putVarint_shortest ht⟩
    simp only [recordFields, List.mem_append, List.mem_singleton, List.mem_map] at hg
    rcases hg with (((rfl | rfl) | ⟨r, _, rfl⟩) | rfl) | hg
    · exact mk _ _ _ (by omega) (by omega) (.varint (putVarint_is _ (by omega))) rfl
    · exact mk _ _ _ (by omega) (by omega) (value_of_means (put32_means ts) _) rfl
    · exact mk _ _ _ (by omega) (by omega) (.varint (putVarint_is _ (extend_spec r).1)) rfl
    · exact mk _ _ _ (by omega) (by omega) (value_of_means (put32_means sf) _) rfl
    · obtain ⟨i, sch', ms', s, e1, e2, e3, rfl⟩ := messageFields_mem hg
      have := schemas_lt e1
      refine mk _ _ _ (by omega) (by omega) (.bytes (putVarint_is _ (marshal_length (schOk_of_get e1) (h.sens i sch' ms' e1 e2 s e3)))) ?_
      unfold recordHas
      refine decide_eq_true_iff.mpr ?_
      exact .inr (.inr (.inr (.inr (.inr ⟨by omega, by omega, rfl⟩))))

end Proto

end Egts
