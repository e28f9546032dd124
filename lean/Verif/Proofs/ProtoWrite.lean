import Verif.Proofs.ProtoRecord

/-! # Lemmas about marshalling, and the round trip -/

namespace Egts

namespace Proto

/-! ## Values -/

theorem zigzag_spec (n : UInt32) : ∃ x : Int, ((zigzag n % 2 ^ 32 : Nat) : Int) = (if 0 ≤ x then 2 * x else -2 * x - 1) ∧ n = UInt32.ofInt x ∧ zigzag n < 2 ^ 32 := by
  have hlt := n.toNat_lt
  have hof : ∀ x : Int, (UInt32.ofInt x).toNat = (x % 2 ^ 32).toNat := by
    intro x
    simp [UInt32.ofInt]; omega
  unfold zigzag
  by_cases h : n.toNat < 2 ^ 31
  · refine ⟨n.toNat, ?_, ?_, ?_⟩
    · rw [if_pos h, if_pos (by omega)]; omega
    · apply UInt32.toNat.inj
      rw [hof]; omega
    · rw [if_pos h]; omega
  · refine ⟨(n.toNat : Int) - 2 ^ 32, ?_, ?_, ?_⟩
    · rw [if_neg h, if_neg (by omega)]; omega
    · apply UInt32.toNat.inj
      rw [hof]; omega
    · rw [if_neg h]; omega

theorem put32_means (n : UInt32) : Kind.fixed32.Means (put32 n) (.num n) := by
  have : read32 (put32 n ++ []) = some (n, []) := by
    have e : (put32 n).length = 4 := by simp [put32]
    rw [List.append_nil, read32, if_pos (by omega), le32_put32, List.drop_of_length_le (by omega)]
  obtain ⟨a, b, c, d, h1, h2⟩ := (read32_iff _ _ _).mp this
  exact ⟨a, b, c, d, by simpa using h1, by rw [h2]⟩

theorem write_means {k : Kind} {v : Val} (h : v.Typed k) : k.Means (k.write v) v := by
  cases k <;> cases v <;> try exact h.elim
  · rename_i n
    have := n.toNat_lt
    exact ⟨n.toNat, putVarint_is _ (by omega), by simp⟩
  · rename_i n
    obtain ⟨x, h1, h2, h3⟩ := zigzag_spec n
    exact ⟨_, x, putVarint_is _ (by omega), h1, by rw [← h2]⟩
  · rename_i b
    cases b
    · exact ⟨0, ⟨[], 0, rfl, by simp, by decide, by simp [Kind.write], rfl, by norm_num⟩, rfl⟩
    · exact ⟨1, ⟨[], 1, rfl, by simp, by decide, by simp [Kind.write], rfl, by norm_num⟩, rfl⟩
  · exact put32_means _
  · rename_i d
    have h : d.length < 2 ^ 32 := h
    exact ⟨_, d, rfl, putVarint_is _ (by omega), rfl⟩

theorem putVarintN_length (n v : Nat) : (putVarintN n v).length ≤ n := by
  induction n generalizing v with
  | zero => simp [putVarintN]
  | succ n ih =>
    simp only [putVarintN]
    split
    · simp
    · have := ih (v / 128)
      simp only [List.length_cons]; omega

theorem write_length {k : Kind} {v : Val} (h : v.Typed k) : (k.write v).length ≤ 2 ^ 32 + 10 := by
  cases k <;> cases v <;> try exact h.elim
  · have := putVarintN_length 10 (UInt32.toNat ‹_›)
    simp only [Kind.write, putVarint]; omega
  · have := putVarintN_length 10 (zigzag ‹_›)
    simp only [Kind.write, putVarint]; omega
  · simp [Kind.write]
  · simp [Kind.write, put32]
  · rename_i d
    have h : d.length < 2 ^ 32 := h
    have := putVarintN_length 10 d.length
    simp only [Kind.write, putVarint, List.length_append]; omega

theorem putTag_is {num wt : Nat} (h : num < 2 ^ 29) (hw : wt < 8) : IsVarint (8 * num + wt) (putTag num wt) := putVarint_is _ (by omega)

/-! ## Messages of scalar fields -/

/-- A field with the shortest tag. -/
def mkField (num wt : Nat) (p : Bytes) : WField := ⟨num, wt, putTag num wt, p⟩

theorem mkField_ok {num wt : Nat} {p : Bytes} (h1 : 1 ≤ num) (h2 : num < 2 ^ 29) (hv : IsValue num wt p) : (mkField num wt p).Ok :=
  ⟨putTag_is h2 hv.wt_lt.1, hv.wt_lt.1, h1, h2, hv⟩

theorem is_iff (num wt : Nat) (f : WField) : WField.is num wt f = true ↔ f.num = num ∧ f.wt = wt := by simp [WField.is]

theorem mk_is_iff (num wt n w : Nat) (p : Bytes) : WField.is num wt (mkField n w p) = true ↔ n = num ∧ w = wt := is_iff num wt (mkField n w p)

/-- The fields that are written. -/
def sensFields : Schema → List (Option Val) → List WField
  | f :: sch, some v :: vs => mkField f.num f.kind.wire (f.kind.write v) :: sensFields sch vs
  | _ :: sch, none :: vs => sensFields sch vs
  | _, _ => []

theorem sensFields_bytes (sch : Schema) (vs : List (Option Val)) : (List.zipWith writeField sch vs).flatten = (sensFields sch vs).flatMap WField.bytes := by
  induction sch generalizing vs with
  | nil => simp [sensFields]
  | cons f sch ih =>
    cases vs with
    | nil => simp [sensFields]
    | cons v vs =>
      cases v with
      | none => simp [sensFields, writeField, ih]
      | some v => simp [sensFields, writeField, ih, mkField, WField.bytes]

theorem sensFields_mem {sch : Schema} {vs : List (Option Val)} {g : WField} (h : g ∈ sensFields sch vs) :
    ∃ (i : Nat) (f : Field) (v : Val), sch[i]? = some f ∧ vs[i]? = some (some v) ∧ g = mkField f.num f.kind.wire (f.kind.write v) := by
  induction sch generalizing vs with
  | nil => simp [sensFields] at h
  | cons f sch ih =>
    cases vs with
    | nil => simp [sensFields] at h
    | cons v vs =>
      cases v with
      | none =>
        obtain ⟨i, f', v', h1, h2, h3⟩ := ih (vs := vs) (by simpa [sensFields] using h)
        exact ⟨i + 1, f', v', h1, h2, h3⟩
      | some v =>
        simp only [sensFields, List.mem_cons] at h
        rcases h with rfl | h
        · exact ⟨0, f, v, rfl, rfl, rfl⟩
        · obtain ⟨i, f', v', h1, h2, h3⟩ := ih h
          exact ⟨i + 1, f', v', h1, h2, h3⟩

theorem sensFields_filter {sch : Schema} (hnd : (sch.map fun f => f.num).Nodup) {vs : List (Option Val)} {i : Nat} {f : Field} {v : Option Val}
    (h1 : sch[i]? = some f) (h2 : vs[i]? = some v) :
    (sensFields sch vs).filter (WField.is f.num f.kind.wire) = (v.map fun v => mkField f.num f.kind.wire (f.kind.write v)).toList := by
  induction sch generalizing vs i with
  | nil => cases h1
  | cons x sch ih =>
    cases vs with
    | nil => cases h2
    | cons w vs =>
      simp only [List.map_cons, List.nodup_cons] at hnd
      have hno : ∀ g ∈ sensFields sch vs, g.num ≠ x.num := by
        intro g hg hc
        obtain ⟨j, f', v', e1, _, rfl⟩ := sensFields_mem hg
        exact hnd.1 (List.mem_map.mpr ⟨f', List.mem_of_getElem? e1, hc⟩)
      cases i with
      | zero =>
        cases h1
        cases h2
        have hnil : (sensFields sch vs).filter (WField.is f.num f.kind.wire) = [] := by
          rw [List.filter_eq_nil_iff]
          intro g hg hc
          simp only [WField.is, decide_eq_true_eq] at hc
          exact hno g hg hc.1
        cases v with
        | none => simpa [sensFields] using hnil
        | some w =>
          rw [sensFields, List.filter_cons_of_pos ((mk_is_iff _ _ _ _ _).mpr ⟨rfl, rfl⟩), hnil]
          rfl
      | succ i =>
        have h1' : sch[i]? = some f := h1
        have h2' : vs[i]? = some v := h2
        have := ih hnd.2 h1' h2'
        cases w with
        | none => simpa [sensFields] using this
        | some w =>
          have hne : x.num ≠ f.num := fun hc => hnd.1 (List.mem_map.mpr ⟨f, List.mem_of_getElem? h1', hc.symm⟩)
          have hf : WField.is f.num f.kind.wire (mkField x.num x.kind.wire (x.kind.write w)) = false := by
            simp [WField.is, mkField, hne]
          simpa [sensFields, hf] using this

theorem lastWith_append_none {fs gs : List WField} {num wt : Nat} (h : gs.filter (WField.is num wt) = []) : lastWith (fs ++ gs) num wt = lastWith fs num wt := by
  simp [lastWith, List.filter_append, h]

theorem marshal_isMessage {sch : Schema} (hs : SchOk sch) {s : Sens} (h : s.Valid sch) : IsMessage sch (s.marshal sch) s := by
  obtain ⟨hl, us, hus, hu⟩ := h.unknown
  refine ⟨sensFields sch s.vals ++ us, ?_, ?_, h.length, ?_, ?_⟩
  · intro g hg
    rcases List.mem_append.mp hg with hg | hg
    · obtain ⟨i, f, v, h1, h2, rfl⟩ := sensFields_mem hg
      obtain ⟨h3, h4⟩ := hs.2.1 f (List.mem_of_getElem? h1)
      exact mkField_ok h3 h4 (value_of_means (write_means (h.vals i f v h1 h2)) _)
    · exact (hus g hg).1
  · rw [List.flatMap_append, ← sensFields_bytes, ← hu]
    rfl
  · intro i f v h1 h2
    rw [lastWith_append_none]
    · unfold lastWith
      rw [sensFields_filter hs.1 h1 h2]
      cases v with
      | none => rfl
      | some v => exact ⟨v, rfl, write_means (h.vals i f v h1 h2)⟩
    · rw [List.filter_eq_nil_iff]
      intro g hg hc
      have := (hus g hg).2.1
      unfold Schema.knows at this
      rw [List.any_eq_false] at this
      exact this f (List.mem_of_getElem? h1) hc
  · rw [List.filter_append, List.flatMap_append]
    have e1 : (sensFields sch s.vals).filter (fun f => !sch.knows f) = [] := by
      rw [List.filter_eq_nil_iff]
      intro g hg hc
      obtain ⟨i, f, v, h1, h2, rfl⟩ := sensFields_mem hg
      have : sch.knows (mkField f.num f.kind.wire (f.kind.write v)) = true := by
        unfold Schema.knows
        rw [List.any_eq_true]
        exact ⟨f, List.mem_of_getElem? h1, by simp [WField.is, mkField]⟩
      rw [this] at hc
      cases hc
    have e2 : us.filter (fun f => !sch.knows f) = us := by
      rw [List.filter_eq_self]
      intro g hg
      rw [(hus g hg).2.1]
      rfl
    rw [e1, e2, hu]
    simp only [List.flatMap_nil, List.nil_append]
    rw [List.flatMap_def, List.flatMap_def]
    congr 1
    exact List.map_congr_left fun g hg => (hus g hg).2.2

theorem marshal_length {sch : Schema} (hs : SchOk sch) {s : Sens} (h : s.Valid sch) : (s.marshal sch).length < 2 ^ 64 := by
  have key : ∀ (sch : Schema) (vs : List (Option Val)), (∀ (i : Nat) (f : Field) (v : Val), sch[i]? = some f → vs[i]? = some (some v) → v.Typed f.kind) →
      (List.zipWith writeField sch vs).flatten.length ≤ sch.length * 2 ^ 33 := by
    intro sch
    induction sch with
    | nil => intro vs _; simp
    | cons f sch ih =>
      intro vs hv
      cases vs with
      | nil => simp
      | cons v vs =>
        have h1 := ih vs fun i f v h1 h2 => hv (i + 1) f v h1 h2
        have h2 : (writeField f v).length ≤ 2 ^ 33 := by
          cases v with
          | none => simp [writeField]
          | some v =>
            have := write_length (hv 0 f v rfl rfl)
            have := putVarintN_length 10 (8 * f.num + f.kind.wire)
            simp only [writeField, putTag, putVarint, List.length_append]
            omega
        simp only [List.zipWith_cons_cons, List.flatten_cons, List.length_append, List.length_cons]
        omega
  have h1 := key sch s.vals h.vals
  have h2 := h.unknown.1
  have h3 := hs.2.2
  simp only [Sens.marshal, List.length_append]
  omega

/-! ## Records -/

/-- The fields of the repeated messages. -/
def messageFields : Nat → List Schema → List (List Sens) → List WField
  | num, sch :: schs, ms :: mss => (ms.map fun s => mkField num 2 (putVarint (s.marshal sch).length ++ s.marshal sch)) ++ messageFields (num + 1) schs mss
  | _, _, _ => []

theorem messageFields_bytes (num : Nat) (schs : List Schema) (mss : List (List Sens)) : putSens num schs mss = (messageFields num schs mss).flatMap WField.bytes := by
  induction schs generalizing num mss with
  | nil => simp [putSens, messageFields]
  | cons sch schs ih =>
    cases mss with
    | nil => simp [putSens, messageFields]
    | cons ms mss =>
      simp only [putSens, messageFields, List.flatMap_append, ih]
      congr 1
      simp [putMessages, List.flatMap_def, List.map_map, Function.comp_def, mkField, WField.bytes]

theorem messageFields_mem {num : Nat} {schs : List Schema} {mss : List (List Sens)} {g : WField} (h : g ∈ messageFields num schs mss) :
    ∃ (i : Nat) (sch : Schema) (ms : List Sens) (s : Sens), schs[i]? = some sch ∧ mss[i]? = some ms ∧ s ∈ ms ∧ g = mkField (num + i) 2 (putVarint (s.marshal sch).length ++ s.marshal sch) := by
  induction schs generalizing num mss with
  | nil => simp [messageFields] at h
  | cons sch schs ih =>
    cases mss with
    | nil => simp [messageFields] at h
    | cons ms mss =>
      simp only [messageFields, List.mem_append, List.mem_map] at h
      rcases h with ⟨s, hs, rfl⟩ | h
      · exact ⟨0, sch, ms, s, rfl, rfl, hs, rfl⟩
      · obtain ⟨i, sch', ms', s, h1, h2, h3, rfl⟩ := ih h
        exact ⟨i + 1, sch', ms', s, h1, h2, h3, by rw [Nat.add_assoc, Nat.add_comm 1 i]⟩

theorem messageFields_filter {num : Nat} {schs : List Schema} {mss : List (List Sens)} {i : Nat} {sch : Schema} {ms : List Sens}
    (h1 : schs[i]? = some sch) (h2 : mss[i]? = some ms) :
    (messageFields num schs mss).filter (WField.is (num + i) 2) = ms.map fun s => mkField (num + i) 2 (putVarint (s.marshal sch).length ++ s.marshal sch) := by
  induction schs generalizing num mss i with
  | nil => cases h1
  | cons x schs ih =>
    cases mss with
    | nil => cases h2
    | cons w mss =>
      simp only [messageFields, List.filter_append]
      cases i with
      | zero =>
        cases h1
        cases h2
        rw [List.filter_eq_self.mpr, List.filter_eq_nil_iff.mpr]
        · simp
        · intro g hg
          obtain ⟨i, sch', ms', s, h1, h2, h3, rfl⟩ := messageFields_mem hg
          rw [mk_is_iff]
          omega
        · intro g hg
          obtain ⟨s, _, rfl⟩ := List.mem_map.mp hg
          simp [WField.is, mkField]
      | succ i =>
        have := ih (num := num + 1) (mss := mss) (i := i) h1 h2
        rw [List.filter_eq_nil_iff.mpr, List.nil_append, show num + (i + 1) = num + 1 + i by omega, this]
        intro g hg
        obtain ⟨s, _, rfl⟩ := List.mem_map.mp hg
        rw [mk_is_iff]
        omega

theorem extend_spec (n : UInt32) : extend n < 2 ^ 64 ∧ UInt32.ofNat (extend n) = n := by
  have hlt := n.toNat_lt
  unfold extend
  split
  · exact ⟨by omega, by simp⟩
  · refine ⟨by omega, ?_⟩
    apply UInt32.toNat.inj
    simp

/-- The fields of a record. -/
def recordFields (rn ts : UInt32) (rr : List UInt32) (sf : UInt32) (mss : List (List Sens)) : List WField :=
  [mkField 1 0 (putVarint rn.toNat)] ++ [mkField 2 5 (put32 ts)] ++ (rr.map fun r => mkField 3 0 (putVarint (extend r))) ++ [mkField 4 5 (put32 sf)]
    ++ messageFields 7 schemas mss

theorem recordFields_bytes (rn ts : UInt32) (rr : List UInt32) (sf : UInt32) (mss : List (List Sens)) :
    putTag 1 0 ++ putVarint rn.toNat ++ (putTag 2 5 ++ put32 ts) ++ (rr.flatMap fun r => putTag 3 0 ++ putVarint (extend r))
      ++ (putTag 4 5 ++ put32 sf) ++ putSens 7 schemas mss = (recordFields rn ts rr sf mss).flatMap WField.bytes := by
  simp only [recordFields, List.flatMap_append, messageFields_bytes]
  simp [List.flatMap_def, List.map_map, Function.comp_def, mkField, WField.bytes]

theorem marshal_fields {m : StorageRecord} (h : m.Valid) : ∃ (rn ts sf : UInt32) (us : List WField),
    m.recordNumber = some rn ∧ m.timeStamp = some ts ∧ m.statusFlags = some sf ∧
    marshal m = some ((recordFields rn ts m.recordReason sf m.sens ++ us).flatMap WField.bytes) ∧
    (∀ f ∈ recordFields rn ts m.recordReason sf m.sens ++ us, f.Ok) ∧ Denoted (recordFields rn ts m.recordReason sf m.sens ++ us) m := by
  obtain ⟨rn, h1⟩ := Option.isSome_iff_exists.mp h.recordNumber
  obtain ⟨ts, h2⟩ := Option.isSome_iff_exists.mp h.timeStamp
  obtain ⟨sf, h3⟩ := Option.isSome_iff_exists.mp h.statusFlags
  obtain ⟨_, us, hus, hu⟩ := h.unknown
  refine ⟨rn, ts, sf, us, h1, h2, h3, by simp only [marshal, h1, h2, h3]; rw [recordFields_bytes, hu, ← List.flatMap_append], ?_⟩
  have hsl : schemas.length = 18 := rfl
  have hrn := rn.toNat_lt
  have hms : ∀ (i : Nat) (sch : Schema) (ms : List Sens) (s : Sens), schemas[i]? = some sch → m.sens[i]? = some ms → s ∈ ms →
      IsVarint (s.marshal sch).length (putVarint (s.marshal sch).length) ∧ IsMessage sch (s.marshal sch) s := by
    intro i sch ms s e1 e2 e3
    have hv := h.sens i sch ms e1 e2 s e3
    exact ⟨putVarint_is _ (marshal_length (schOk_of_get e1) hv), marshal_isMessage (schOk_of_get e1) hv⟩
  have hnk : ∀ num wt, recordHas num wt = true → us.filter (WField.is num wt) = [] := by
    intro num wt hh
    rw [List.filter_eq_nil_iff]
    intro g hg hc
    have := (hus g hg).2.1
    simp only [WField.is, decide_eq_true_eq] at hc
    rw [recordKnows_eq, hc.1, hc.2, hh] at this
    cases this
  have hmf : ∀ num wt, num < 7 ∨ 24 < num ∨ wt ≠ 2 → (messageFields 7 schemas m.sens).filter (WField.is num wt) = [] := by
    intro num wt hh
    rw [List.filter_eq_nil_iff]
    intro g hg hc
    obtain ⟨i, sch', ms', s, e1, e2, e3, rfl⟩ := messageFields_mem hg
    have := schemas_lt e1
    rw [mk_is_iff] at hc
    omega
  have hrr : ∀ num wt, num ≠ 3 → (m.recordReason.map fun r => mkField 3 0 (putVarint (extend r))).filter (WField.is num wt) = [] := by
    intro num wt hh
    rw [List.filter_eq_nil_iff]
    intro g hg hc
    obtain ⟨r, _, rfl⟩ := List.mem_map.mp hg
    rw [mk_is_iff] at hc
    omega
  refine ⟨?_, ?_, ?_, ?_, ?_, h.length, ?_, ?_⟩
  · intro g hg
    simp only [recordFields, List.mem_append, List.mem_singleton, List.mem_map] at hg
    rcases hg with ((((rfl | rfl) | ⟨r, _, rfl⟩) | rfl) | hg) | hg
    · exact mkField_ok (by omega) (by omega) (.varint (putVarint_is _ (by omega)))
    · exact mkField_ok (by omega) (by omega) (value_of_means (put32_means ts) _)
    · exact mkField_ok (by omega) (by omega) (.varint (putVarint_is _ (extend_spec r).1))
    · exact mkField_ok (by omega) (by omega) (value_of_means (put32_means sf) _)
    · obtain ⟨i, sch', ms', s, e1, e2, e3, rfl⟩ := messageFields_mem hg
      have := schemas_lt e1
      exact mkField_ok (by omega) (by omega) (.bytes (hms i sch' ms' s e1 e2 e3).1)
    · exact (hus g hg).1
  · unfold lastWith recordFields
    simp only [List.filter_append, hnk 1 0 rfl, hmf 1 0 (by omega), hrr 1 0 (by omega), h1]
    exact ⟨_, rfl, rn.toNat, putVarint_is _ (by omega), by simp⟩
  · unfold lastWith recordFields
    simp only [List.filter_append, hnk 2 5 rfl, hmf 2 5 (by omega), hrr 2 5 (by omega), h2]
    exact ⟨_, rfl, put32_means ts⟩
  · have e : ((recordFields rn ts m.recordReason sf m.sens ++ us).filter fun f => WField.is 3 0 f || WField.is 3 2 f) =
        m.recordReason.map fun r => mkField 3 0 (putVarint (extend r)) := by
      simp only [recordFields, List.filter_append]
      have f1 : ∀ l : List WField, (∀ g ∈ l, ¬ (WField.is 3 0 g || WField.is 3 2 g) = true) → (l.filter fun f => WField.is 3 0 f || WField.is 3 2 f) = [] :=
        fun l hl => List.filter_eq_nil_iff.mpr hl
      have f2 : ∀ l : List WField, (∀ g ∈ l, (WField.is 3 0 g || WField.is 3 2 g) = true) → (l.filter fun f => WField.is 3 0 f || WField.is 3 2 f) = l :=
        fun l hl => List.filter_eq_self.mpr hl
      rw [f2 (m.recordReason.map _), f1 (messageFields 7 schemas m.sens), f1 us]
      · simp [WField.is, mkField]
      · intro g hg hc
        have := (hus g hg).2.1
        rw [recordKnows_eq] at this
        simp only [recordHas, decide_eq_false_iff_not] at this
        rw [Bool.or_eq_true, is_iff, is_iff] at hc
        omega
      · intro g hg hc
        obtain ⟨i, sch', ms', s, e1, e2, e3, rfl⟩ := messageFields_mem hg
        rw [Bool.or_eq_true, mk_is_iff, mk_is_iff] at hc
        omega
      · intro g hg
        obtain ⟨r, _, rfl⟩ := List.mem_map.mp hg
        simp [WField.is, mkField]
    rw [e]
    refine ⟨m.recordReason.map fun r => [r], ?_, by rw [← List.flatMap_def]; exact (List.flatMap_singleton' _).symm⟩
    generalize m.recordReason = rr
    induction rr with
    | nil => exact .nil
    | cons r rr ih =>
      obtain ⟨e1, e2⟩ := extend_spec r
      exact .cons (.inl ⟨rfl, _, putVarint_is _ e1, by rw [e2]⟩) ih
  · unfold lastWith recordFields
    simp only [List.filter_append, hnk 4 5 rfl, hmf 4 5 (by omega), hrr 4 5 (by omega), h3]
    exact ⟨_, rfl, put32_means sf⟩
  · intro i sch ms e1 e2
    have hi := schemas_lt e1
    have e : (recordFields rn ts m.recordReason sf m.sens ++ us).filter (WField.is (7 + i) 2) =
        ms.map fun s => mkField (7 + i) 2 (putVarint (s.marshal sch).length ++ s.marshal sch) := by
      simp only [recordFields, List.filter_append, hrr (7 + i) 2 (by omega), messageFields_filter e1 e2,
        hnk (7 + i) 2 (by unfold recordHas; refine decide_eq_true_iff.mpr ?_; refine .inr (.inr (.inr (.inr (.inr ⟨by omega, by omega, rfl⟩)))))]
      have n1 : ∀ p, WField.is (7 + i) 2 (mkField 1 0 p) = false := fun p => by simp [WField.is, mkField]
      have n2 : ∀ p, WField.is (7 + i) 2 (mkField 2 5 p) = false := fun p => by simp [WField.is, mkField]
      have n4 : ∀ p, WField.is (7 + i) 2 (mkField 4 5 p) = false := fun p => by simp [WField.is, mkField]
      simp [n1, n2, n4]
    rw [e]
    have hms' : ∀ s ∈ ms, IsVarint (s.marshal sch).length (putVarint (s.marshal sch).length) ∧ IsMessage sch (s.marshal sch) s :=
      fun s hs => hms i sch ms s e1 e2 hs
    clear e e2 hms hnk hmf hrr
    induction ms with
    | nil => exact .nil
    | cons s ms ih =>
      obtain ⟨f1, f2⟩ := hms' s (by simp)
      exact .cons ⟨_, _, rfl, f1, f2⟩ (ih fun s hs => hms' s (by simp [hs]))
  · have e1 : (recordFields rn ts m.recordReason sf m.sens).filter (fun f => !recordKnows f) = [] := by
      rw [List.filter_eq_nil_iff]
      intro g hg hc
      rw [recordKnows_eq] at hc
      simp only [recordFields, List.mem_append, List.mem_singleton, List.mem_map] at hg
      rcases hg with (((rfl | rfl) | ⟨r, _, rfl⟩) | rfl) | hg
      · cases hc
      · cases hc
      · cases hc
      · cases hc
      · obtain ⟨i, sch', ms', s, e1, e2, e3, rfl⟩ := messageFields_mem hg
        have := schemas_lt e1
        have : recordHas (mkField (7 + i) 2 (putVarint (s.marshal sch').length ++ s.marshal sch')).num 2 = true := by
          unfold recordHas
          refine decide_eq_true_iff.mpr ?_
          show _ ∨ _ ∨ _ ∨ _ ∨ _ ∨ (7 ≤ 7 + i ∧ 7 + i ≤ 24 ∧ 2 = 2)
          refine .inr (.inr (.inr (.inr (.inr ⟨by omega, by omega, rfl⟩))))
        rw [show (mkField (7 + i) 2 (putVarint (s.marshal sch').length ++ s.marshal sch')).wt = 2 from rfl, this] at hc
        cases hc
    have e2 : us.filter (fun f => !recordKnows f) = us := by
      rw [List.filter_eq_self]
      intro g hg
      rw [(hus g hg).2.1]
      rfl
    rw [List.filter_append, e1, e2, hu]
    simp only [List.nil_append, List.flatMap_def]
    congr 1
    exact List.map_congr_left fun g hg => (hus g hg).2.2

theorem marshal_isRecord {m : StorageRecord} (h : m.Valid) : ∃ b, marshal m = some b ∧ IsRecord b m := by
  obtain ⟨rn, ts, sf, us, _, _, _, hm, hok, hd⟩ := marshal_fields h
  exact ⟨_, hm, _, hok, rfl, hd⟩

theorem marshal_unmarshal {m : StorageRecord} (h : m.Valid) : ∃ b, marshal m = some b ∧ unmarshal b = some m := by
  obtain ⟨b, h1, h2⟩ := marshal_isRecord h
  exact ⟨b, h1, (unmarshalRecord_iff b m).mpr ⟨h2, h.recordNumber, h.timeStamp, h.statusFlags⟩⟩

end Proto

end Egts
