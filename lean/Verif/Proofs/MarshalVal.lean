import Mathlib.Data.List.Forall2
import Verif.Proofs.Marshal

/-! # Reading back what `json.Marshal` writes: values -/

namespace Egts
open Json Utf8

/-- The value of a text. -/
def textValue (b : Bytes) : Value := (parseJson b).getD .null

mutual
/-- The JSON value that is written. -/
def GoVal.value : GoVal → Value
  | .null => .null
  | .uint n => .num (n : ℚ)
  | .int i => .num (i : ℚ)
  | .bool b => .bool b
  | .str s => .str (repair s)
  | .f64 x => textValue (jsonFloat x)
  | .f32 bits => textValue ((marshalF32 bits).getD [])
  | .time t => textValue ((marshalTime t).getD [])
  | .bytes b => .str (base64 b)
  | .list vs => .arr (GoVal.valueList vs)
  | .struct fs => .obj (GoVal.valueFields fs)

def GoVal.valueList : List GoVal → List Value
  | [] => []
  | v :: vs => v.value :: GoVal.valueList vs

def GoVal.valueFields : List (Bytes × GoVal) → List (Bytes × Value)
  | [] => []
  | (k, v) :: fs => (k, v.value) :: GoVal.valueFields fs
end

mutual
/-- The doubles are doubles and the names of fields are ASCII. -/
def GoVal.Ok : GoVal → Prop
  | .f64 x => IsDouble x
  | .list vs => GoVal.OkList vs
  | .struct fs => GoVal.OkFields fs
  | _ => True

def GoVal.OkList : List GoVal → Prop
  | [] => True
  | v :: vs => v.Ok ∧ GoVal.OkList vs

def GoVal.OkFields : List (Bytes × GoVal) → Prop
  | [] => True
  | (k, v) :: fs => IsAscii k ∧ v.Ok ∧ GoVal.OkFields fs
end

theorem GoVal.valueList_eq (vs : List GoVal) : GoVal.valueList vs = vs.map GoVal.value := by
  induction vs with
  | nil => rfl
  | cons v vs ih => simp only [GoVal.valueList, List.map_cons, ih]

theorem GoVal.valueFields_eq (fs : List (Bytes × GoVal)) : GoVal.valueFields fs = fs.map fun f => (f.1, f.2.value) := by
  induction fs with
  | nil => rfl
  | cons f fs ih => simp only [GoVal.valueFields, List.map_cons, ih]

theorem GoVal.okList_iff (vs : List GoVal) : GoVal.OkList vs ↔ ∀ v ∈ vs, v.Ok := by
  induction vs with
  | nil => simp [GoVal.OkList]
  | cons v vs ih => simp [GoVal.OkList, ih]

theorem GoVal.okFields_iff (fs : List (Bytes × GoVal)) : GoVal.OkFields fs ↔ ∀ f ∈ fs, IsAscii f.1 ∧ f.2.Ok := by
  induction fs with
  | nil => simp [GoVal.OkFields]
  | cons f fs ih => simp [GoVal.OkFields, ih, and_assoc]

theorem textValue_of {b : Bytes} {v : Value} {c : Nat} (h : Reads b v c) (hc : c ≤ b.length + 1) : textValue b = v := by
  unfold textValue
  rw [parseJson_of h hc]
  rfl

theorem reads_bool (b : Bool) : Reads (if b then go!"true" else go!"false") (.bool b) 1 := by
  cases b
  · refine ⟨⟨102, _, rfl, rfl, by decide⟩, fun n hn rest _ => ?_⟩
    obtain ⟨k, rfl⟩ : ∃ k, n = k + 1 := ⟨n - 1, by omega⟩
    rfl
  · refine ⟨⟨116, _, rfl, rfl, by decide⟩, fun n hn rest _ => ?_⟩
    obtain ⟨k, rfl⟩ : ∃ k, n = k + 1 := ⟨n - 1, by omega⟩
    rfl

theorem reads_emptyArray : Reads [91, 93] (.arr []) 1 := by
  refine ⟨⟨91, _, rfl, rfl, by decide⟩, fun n hn rest _ => ?_⟩
  obtain ⟨k, rfl⟩ : ∃ k, n = k + 1 := ⟨n - 1, by omega⟩
  rfl

theorem reads_emptyObject : Reads [123, 125] (.obj []) 1 := by
  refine ⟨⟨123, _, rfl, rfl, by decide⟩, fun n hn rest _ => ?_⟩
  obtain ⟨k, rfl⟩ : ∃ k, n = k + 1 := ⟨n - 1, by omega⟩
  rfl

theorem intercalate_length (es : List Bytes) :
    (([44] : Bytes).intercalate es).length + 1 = (es.map List.length).sum + es.length + if es = [] then 1 else 0 := by
  induction es with
  | nil => rfl
  | cons a es ih =>
    cases es with
    | nil => simp [List.intercalate]
    | cons b es =>
      rw [intercalate_cons]
      simp only [List.length_append, List.length_cons, List.map_cons, List.sum_cons, reduceCtorEq, if_false] at ih ⊢
      omega

theorem reads_array {es : List Bytes} {vs : List Value} (h : List.Forall₂ (fun e v => Reads e v (e.length + 1)) es vs) :
    Reads ([91] ++ ([44] : Bytes).intercalate es ++ [93]) (.arr vs) (([91] ++ ([44] : Bytes).intercalate es ++ [93]).length + 1) := by
  by_cases hne : es = []
  · subst hne
    cases h
    exact reads_emptyArray.mono (by simp)
  · obtain ⟨ps, hp1, hp2, hp3⟩ : ∃ ps : List (Bytes × Value), ps.map (·.1) = es ∧ ps.map (·.2) = vs ∧
        ∀ p ∈ ps, Reads p.1 p.2 ((es.map List.length).sum + 1) := by
      clear hne
      induction h with
      | nil => exact ⟨[], rfl, rfl, by simp⟩
      | @cons e v es vs h1 _ ih =>
        obtain ⟨ps, g1, g2, g3⟩ := ih
        refine ⟨(e, v) :: ps, by simp [g1], by simp [g2], ?_⟩
        intro p hp
        rcases List.mem_cons.mp hp with rfl | hp
        · exact h1.mono (by simp)
        · exact (g3 p hp).mono (by simp)
    have hps : ps ≠ [] := by rintro rfl; exact hne hp1.symm
    have := reads_jsonSlice hps hp3
    rw [hp1, hp2] at this
    unfold jsonSlice at this
    rw [if_neg hne] at this
    refine this.mono ?_
    have hl := intercalate_length es
    rw [if_neg hne] at hl
    have hpl : ps.length = es.length := by rw [← hp1]; simp
    simp only [List.length_append, List.length_singleton]
    omega

theorem reads_object {es : List (Bytes × Bytes)} {vs : List (Bytes × Value)}
    (h : List.Forall₂ (fun e v => e.1 = v.1 ∧ IsAscii e.1 ∧ Reads e.2 v.2 (e.2.length + 1)) es vs) :
    Reads (jsonObject es) (.obj vs) ((jsonObject es).length + 1) := by
  by_cases hne : es = []
  · subst hne
    cases h
    exact reads_emptyObject.mono (by simp [jsonObject])
  · obtain ⟨ps, hp1, hp2, hp3⟩ : ∃ ps : List (Bytes × Bytes × Value), ps.map (fun m => (m.1, m.2.1)) = es ∧
        ps.map (fun m => (m.1, m.2.2)) = vs ∧ ∀ p ∈ ps, IsAscii p.1 ∧ Reads p.2.1 p.2.2 ((es.map (·.2.length)).sum + 1) := by
      clear hne
      induction h with
      | nil => exact ⟨[], rfl, rfl, by simp⟩
      | @cons e v es vs h1 _ ih =>
        obtain ⟨ps, g1, g2, g3⟩ := ih
        refine ⟨(e.1, e.2, v.2) :: ps, by simp [g1], by simp [g2, h1.1], ?_⟩
        intro p hp
        rcases List.mem_cons.mp hp with rfl | hp
        · exact ⟨h1.2.1, h1.2.2.mono (by simp)⟩
        · exact ⟨(g3 p hp).1, (g3 p hp).2.mono (by simp)⟩
    have hps : ps ≠ [] := by rintro rfl; exact hne hp1.symm
    have := reads_jsonObject hps hp3
    rw [hp1, hp2] at this
    refine this.mono ?_
    have hl := intercalate_length (es.map (fun m => jsonString m.1 ++ [58] ++ m.2))
    rw [if_neg (by simpa using hne)] at hl
    have hpl : ps.length = es.length := by rw [← hp1]; simp
    have hsum : (es.map (·.2.length)).sum ≤ ((es.map (fun m => jsonString m.1 ++ [58] ++ m.2)).map List.length).sum := by
      clear hl hpl this hp1 hp2 hp3 hne h
      induction es with
      | nil => simp
      | cons e es ih =>
        simp only [List.map_cons, List.sum_cons, List.length_append]
        omega
    unfold jsonObject
    simp only [List.length_append, List.length_singleton, List.length_map] at hl ⊢
    omega

mutual
/-- What is written is read back as the value. -/
theorem GoVal.reads_json : ∀ (v : GoVal) (b : Bytes), v.Ok → v.json = some b → Reads b v.value (b.length + 1)
  | .null, b, _, h => by
    simp only [GoVal.json, Option.some.injEq] at h; subst h
    exact reads_null.mono (by simp)
  | .uint n, b, _, h => by
    simp only [GoVal.json, Option.some.injEq] at h; subst h
    exact (reads_decNat n).mono (by simp)
  | .int i, b, _, h => by
    simp only [GoVal.json, Option.some.injEq] at h; subst h
    exact (reads_decInt i).mono (by simp)
  | .bool x, b, _, h => by
    simp only [GoVal.json, Option.some.injEq] at h; subst h
    exact (reads_bool x).mono (by simp)
  | .str s, b, _, h => by
    simp only [GoVal.json, Option.some.injEq] at h; subst h
    exact (reads_marshalString s).mono (by simp)
  | .f64 x, b, hok, h => by
    simp only [GoVal.json, Option.some.injEq] at h; subst h
    obtain ⟨q, _, h2⟩ := reads_jsonFloat hok
    show Reads _ (textValue (jsonFloat x)) _
    rw [textValue_of h2 (by simp)]
    exact h2.mono (by simp)
  | .f32 bits, b, _, h => by
    simp only [GoVal.json] at h
    obtain ⟨q, h1, _⟩ := asF32_marshal h
    show Reads _ (textValue ((marshalF32 bits).getD [])) _
    rw [h, Option.getD_some, textValue_of h1 (by simp)]
    exact h1.mono (by simp)
  | .time t, b, _, h => by
    simp only [GoVal.json] at h
    obtain ⟨s, h1, _, h3⟩ := marshalTime_spec h
    have h4 := reads_plain (fun c hc => (h3 c hc).1)
    rw [← h1] at h4
    show Reads _ (textValue ((marshalTime t).getD [])) _
    rw [h, Option.getD_some, textValue_of h4 (by simp)]
    exact h4.mono (by simp)
  | .bytes x, b, _, h => by
    simp only [GoVal.json, Option.some.injEq] at h; subst h
    exact (reads_base64 x).mono (by simp)
  | .list vs, b, hok, h => by
    simp only [GoVal.json, Option.map_eq_some_iff] at h
    obtain ⟨es, h1, rfl⟩ := h
    exact reads_array (GoVal.reads_jsonList vs es hok h1)
  | .struct fs, b, hok, h => by
    simp only [GoVal.json, Option.map_eq_some_iff] at h
    obtain ⟨es, h1, rfl⟩ := h
    exact reads_object (GoVal.reads_jsonFields fs es hok h1)

theorem GoVal.reads_jsonList : ∀ (vs : List GoVal) (es : List Bytes), GoVal.OkList vs → GoVal.jsonList vs = some es →
    List.Forall₂ (fun e v => Reads e v (e.length + 1)) es (GoVal.valueList vs)
  | [], es, _, h => by
    simp only [GoVal.jsonList, Option.some.injEq] at h; subst h
    exact .nil
  | v :: vs, es, hok, h => by
    simp only [GoVal.jsonList] at h
    split at h
    · rename_i e es' h1 h2
      injection h with h; subst h
      exact .cons (GoVal.reads_json v e hok.1 h1) (GoVal.reads_jsonList vs es' hok.2 h2)
    · cases h

theorem GoVal.reads_jsonFields : ∀ (fs : List (Bytes × GoVal)) (es : List (Bytes × Bytes)), GoVal.OkFields fs → GoVal.jsonFields fs = some es →
    List.Forall₂ (fun e v => e.1 = v.1 ∧ IsAscii e.1 ∧ Reads e.2 v.2 (e.2.length + 1)) es (GoVal.valueFields fs)
  | [], es, _, h => by
    simp only [GoVal.jsonFields, Option.some.injEq] at h; subst h
    exact .nil
  | (k, v) :: fs, es, hok, h => by
    simp only [GoVal.jsonFields] at h
    split at h
    · rename_i e es' h1 h2
      injection h with h; subst h
      exact .cons ⟨rfl, hok.1, GoVal.reads_json v e hok.2.1 h1⟩ (GoVal.reads_jsonFields fs es' hok.2.2 h2)
    · cases h
end

theorem GoVal.parse_json {v : GoVal} {b : Bytes} (hok : v.Ok) (h : v.json = some b) : parseJson b = some v.value :=
  parseJson_of (v.reads_json b hok h) (le_refl _)

/-! ## When there is a text -/

mutual
/-- The times in a value. -/
def GoVal.times : GoVal → List GoTime
  | .time t => [t]
  | .list vs => GoVal.timesList vs
  | .struct fs => GoVal.timesFields fs
  | _ => []

def GoVal.timesList : List GoVal → List GoTime
  | [] => []
  | v :: vs => v.times ++ GoVal.timesList vs

def GoVal.timesFields : List (Bytes × GoVal) → List GoTime
  | [] => []
  | (_, v) :: fs => v.times ++ GoVal.timesFields fs
end

mutual
/-- The `float32` numbers in a value. -/
def GoVal.floats : GoVal → List UInt32
  | .f32 x => [x]
  | .list vs => GoVal.floatsList vs
  | .struct fs => GoVal.floatsFields fs
  | _ => []

def GoVal.floatsList : List GoVal → List UInt32
  | [] => []
  | v :: vs => v.floats ++ GoVal.floatsList vs

def GoVal.floatsFields : List (Bytes × GoVal) → List UInt32
  | [] => []
  | (_, v) :: fs => v.floats ++ GoVal.floatsFields fs
end

/-- A time of the years 0 to 9999. -/
abbrev TimeOk (t : GoTime) : Prop := (-62167219200000000000 : Int) ≤ t ∧ t < (253402300800000000000 : Int)

/-- A finite number. -/
abbrev FiniteF32 (bits : UInt32) : Prop := bits.toNat / 2 ^ 23 % 256 ≠ 255

theorem marshalF32_isSome (bits : UInt32) : (marshalF32 bits).isSome ↔ FiniteF32 bits := by
  unfold marshalF32 FiniteF32 f32Abs
  simp only [Option.isSome_map]
  split
  · simp_all
  · split <;> simp_all

mutual
theorem GoVal.json_isSome : ∀ v : GoVal, v.json.isSome ↔ (∀ t ∈ v.times, TimeOk t) ∧ ∀ x ∈ v.floats, FiniteF32 x
  | .null => by simp [GoVal.json, GoVal.times, GoVal.floats]
  | .uint n => by simp [GoVal.json, GoVal.times, GoVal.floats]
  | .int i => by simp [GoVal.json, GoVal.times, GoVal.floats]
  | .bool x => by simp [GoVal.json, GoVal.times, GoVal.floats]
  | .str s => by simp [GoVal.json, GoVal.times, GoVal.floats]
  | .f64 x => by simp [GoVal.json, GoVal.times, GoVal.floats]
  | .bytes x => by simp [GoVal.json, GoVal.times, GoVal.floats]
  | .f32 x => by
    simp only [GoVal.json, GoVal.times, GoVal.floats]
    rw [marshalF32_isSome]; simp
  | .time t => by
    simp only [GoVal.json, GoVal.times, GoVal.floats]
    rw [marshalTime_isSome]; simp
  | .list vs => by
    simp only [GoVal.json, GoVal.times, GoVal.floats, Option.isSome_map]
    exact GoVal.jsonList_isSome vs
  | .struct fs => by
    simp only [GoVal.json, GoVal.times, GoVal.floats, Option.isSome_map]
    exact GoVal.jsonFields_isSome fs

theorem GoVal.jsonList_isSome : ∀ vs : List GoVal, (GoVal.jsonList vs).isSome ↔
    (∀ t ∈ GoVal.timesList vs, TimeOk t) ∧ ∀ x ∈ GoVal.floatsList vs, FiniteF32 x
  | [] => by simp [GoVal.jsonList, GoVal.timesList, GoVal.floatsList]
  | v :: vs => by
    simp only [GoVal.jsonList, GoVal.timesList, GoVal.floatsList, List.forall_mem_append]
    have h1 := GoVal.json_isSome v
    have h2 := GoVal.jsonList_isSome vs
    cases hv : v.json <;> cases hs : GoVal.jsonList vs <;> rw [hv] at h1 <;> rw [hs] at h2 <;>
      simp only [Option.isSome_some, Option.isSome_none, true_iff, Bool.false_eq_true, false_iff] at h1 h2 ⊢ <;> tauto

theorem GoVal.jsonFields_isSome : ∀ fs : List (Bytes × GoVal), (GoVal.jsonFields fs).isSome ↔
    (∀ t ∈ GoVal.timesFields fs, TimeOk t) ∧ ∀ x ∈ GoVal.floatsFields fs, FiniteF32 x
  | [] => by simp [GoVal.jsonFields, GoVal.timesFields, GoVal.floatsFields]
  | (k, v) :: fs => by
    simp only [GoVal.jsonFields, GoVal.timesFields, GoVal.floatsFields, List.forall_mem_append]
    have h1 := GoVal.json_isSome v
    have h2 := GoVal.jsonFields_isSome fs
    cases hv : v.json <;> cases hs : GoVal.jsonFields fs <;> rw [hv] at h1 <;> rw [hs] at h2 <;>
      simp only [Option.isSome_some, Option.isSome_none, true_iff, Bool.false_eq_true, false_iff] at h1 h2 ⊢ <;> tauto
end

/-! ## The text is UTF-8 -/

theorem isAscii_append {a b : Bytes} (h1 : IsAscii a) (h2 : IsAscii b) : IsAscii (a ++ b) :=
  fun c hc => (List.mem_append.mp hc).elim (h1 c) (h2 c)

theorem isAscii_digits {a : Bytes} (h : ∀ c ∈ a, isDigit c = true) : IsAscii a := by
  intro c hc
  rcases isDigit_cases (h c hc) with rfl | rfl | rfl | rfl | rfl | rfl | rfl | rfl | rfl | rfl <;> decide

theorem isAscii_sub {a b : Bytes} (h : IsAscii b) (hs : ∀ c ∈ a, c ∈ b) : IsAscii a := fun c hc => h c (hs c hc)

theorem decNat_ascii (n : Nat) : IsAscii (decNat n) := isAscii_digits (decNat_int n).digits

theorem decInt_ascii (i : Int) : IsAscii (decInt i) := by
  unfold decInt
  split
  · exact isAscii_append (a := [45]) (by unfold IsAscii; decide) (decNat_ascii _)
  · exact decNat_ascii _

theorem fmtF_ascii {ds : Bytes} {dp : Int} (h : IsAscii ds) : IsAscii (fmtF ds dp) := by
  have hr : ∀ n, IsAscii (List.replicate n 48) := fun n c hc => by rw [List.eq_of_mem_replicate hc]; decide
  unfold fmtF
  split
  · exact isAscii_append (isAscii_append (by unfold IsAscii; decide) (hr _)) h
  · split
    · exact isAscii_append (isAscii_append (isAscii_sub h fun c hc => List.mem_of_mem_take hc) (by unfold IsAscii; decide))
        (isAscii_sub h fun c hc => List.mem_of_mem_drop hc)
    · exact isAscii_append h (hr _)

theorem fmtE_ascii {ds : Bytes} {dp : Int} (h : IsAscii ds) : IsAscii (fmtE ds dp) := by
  have h1 : ∀ n, IsAscii (ds.take n) := fun n => isAscii_sub h fun c hc => List.mem_of_mem_take hc
  have h2 : ∀ n, IsAscii (ds.drop n) := fun n => isAscii_sub h fun c hc => List.mem_of_mem_drop hc
  unfold fmtE
  refine isAscii_append (isAscii_append (isAscii_append (isAscii_append (h1 _) ?_) (by unfold IsAscii; decide)) ?_) (decNat_ascii _)
  · split
    · unfold IsAscii; decide
    · exact isAscii_append (by unfold IsAscii; decide) (h2 _)
  · split <;> (unfold IsAscii; decide)

theorem digits_ascii (m : Nat) : IsAscii (((Nat.digits 10 m).dropWhile (· = 0)).reverse.map (fun d => UInt8.ofNat (48 + d))) :=
  isAscii_digits (allDigits_map _ fun d hd => digits_lt m d ((List.dropWhile_sublist _).subset hd))

theorem jsonPos_ascii (f : ℚ) : IsAscii (jsonPos f) := by
  unfold jsonPos shortest
  simp only
  split
  · exact fmtE_ascii (digits_ascii _)
  · exact fmtF_ascii (digits_ascii _)

theorem jsonPos32_ascii (f : ℚ) : IsAscii (jsonPos32 f) := by
  unfold jsonPos32 shortest32
  simp only
  split
  · exact fmtE_ascii (digits_ascii _)
  · exact fmtF_ascii (digits_ascii _)

theorem jsonFloat_ascii (f : ℚ) : IsAscii (jsonFloat f) := by
  unfold jsonFloat
  split
  · unfold IsAscii; decide
  · split
    · exact isAscii_append (a := [45]) (by unfold IsAscii; decide) (jsonPos_ascii _)
    · exact jsonPos_ascii _

theorem marshalF32_ascii {bits : UInt32} {b : Bytes} (h : marshalF32 bits = some b) : IsAscii b := by
  unfold marshalF32 at h
  rw [Option.map_eq_some_iff] at h
  obtain ⟨a, _, rfl⟩ := h
  refine isAscii_append ?_ ?_
  · split <;> (unfold IsAscii; decide)
  · split
    · unfold IsAscii; decide
    · exact jsonPos32_ascii _

theorem jsonString_ascii {s : Bytes} (h : IsAscii s) : IsAscii (jsonString s) := by
  unfold jsonString
  refine isAscii_append (isAscii_append (by unfold IsAscii; decide) ?_) (by unfold IsAscii; decide)
  intro c hc
  rw [List.mem_flatMap] at hc
  obtain ⟨x, hx, hc⟩ := hc
  exact jsonChar_ascii (h x hx) c hc

theorem intercalate_wellFormed {es : List Bytes} (h : ∀ e ∈ es, WellFormed e) : WellFormed (([44] : Bytes).intercalate es) := by
  induction es with
  | nil => exact wellFormed_nil
  | cons a es ih =>
    cases es with
    | nil => simpa [List.intercalate] using h
    | cons b es =>
      rw [intercalate_cons]
      refine wellFormed_append (h a (List.mem_cons_self ..)) ?_
      exact wellFormed_append (s := [44]) (wellFormed_ascii (by unfold IsAscii; decide)) (ih fun e he => h e (List.mem_cons_of_mem _ he))

theorem quoted_wellFormed {s : Bytes} (h : ∀ c ∈ s, c < 128) : WellFormed ([34] ++ s ++ [34]) :=
  wellFormed_ascii (isAscii_append (isAscii_append (by unfold IsAscii; decide) h) (by unfold IsAscii; decide))

mutual
theorem GoVal.json_wellFormed : ∀ (v : GoVal) (b : Bytes), v.Ok → v.json = some b → WellFormed b
  | .null, b, _, h => by
    simp only [GoVal.json, Option.some.injEq] at h; subst h
    exact wellFormed_ascii (by unfold IsAscii; decide)
  | .uint n, b, _, h => by
    simp only [GoVal.json, Option.some.injEq] at h; subst h
    exact wellFormed_ascii (decNat_ascii n)
  | .int i, b, _, h => by
    simp only [GoVal.json, Option.some.injEq] at h; subst h
    exact wellFormed_ascii (decInt_ascii i)
  | .bool x, b, _, h => by
    simp only [GoVal.json, Option.some.injEq] at h; subst h
    exact wellFormed_ascii (by unfold IsAscii; cases x <;> decide)
  | .str s, b, _, h => by
    simp only [GoVal.json, Option.some.injEq] at h; subst h
    exact marshalString_wellFormed s
  | .f64 x, b, _, h => by
    simp only [GoVal.json, Option.some.injEq] at h; subst h
    exact wellFormed_ascii (jsonFloat_ascii x)
  | .f32 bits, b, _, h => by
    simp only [GoVal.json] at h
    exact wellFormed_ascii (marshalF32_ascii h)
  | .time t, b, _, h => by
    simp only [GoVal.json] at h
    obtain ⟨s, h1, _, h3⟩ := marshalTime_spec h
    rw [h1]
    exact quoted_wellFormed fun c hc => (h3 c hc).2
  | .bytes x, b, _, h => by
    simp only [GoVal.json, Option.some.injEq] at h; subst h
    exact quoted_wellFormed fun c hc => (base64_plain x c hc).2
  | .list vs, b, hok, h => by
    simp only [GoVal.json, Option.map_eq_some_iff] at h
    obtain ⟨es, h1, rfl⟩ := h
    exact wellFormed_append (wellFormed_append (wellFormed_ascii (by unfold IsAscii; decide))
      (intercalate_wellFormed (GoVal.jsonList_wellFormed vs es hok h1))) (wellFormed_ascii (by unfold IsAscii; decide))
  | .struct fs, b, hok, h => by
    simp only [GoVal.json, Option.map_eq_some_iff] at h
    obtain ⟨es, h1, rfl⟩ := h
    have h2 := GoVal.jsonFields_wellFormed fs es hok h1
    refine wellFormed_append (wellFormed_append (wellFormed_ascii (by unfold IsAscii; decide))
      (intercalate_wellFormed ?_)) (wellFormed_ascii (by unfold IsAscii; decide))
    intro e he
    obtain ⟨m, hm, rfl⟩ := List.mem_map.mp he
    exact wellFormed_append (wellFormed_append (wellFormed_ascii (jsonString_ascii (h2 m hm).1)) (wellFormed_ascii (by unfold IsAscii; decide)))
      (h2 m hm).2

theorem GoVal.jsonList_wellFormed : ∀ (vs : List GoVal) (es : List Bytes), GoVal.OkList vs → GoVal.jsonList vs = some es →
    ∀ e ∈ es, WellFormed e
  | [], es, _, h => by
    simp only [GoVal.jsonList, Option.some.injEq] at h; subst h
    simp
  | v :: vs, es, hok, h => by
    simp only [GoVal.jsonList] at h
    split at h
    · rename_i e es' h1 h2
      injection h with h; subst h
      intro x hx
      rcases List.mem_cons.mp hx with rfl | hx
      · exact GoVal.json_wellFormed v _ hok.1 h1
      · exact GoVal.jsonList_wellFormed vs es' hok.2 h2 x hx
    · cases h

theorem GoVal.jsonFields_wellFormed : ∀ (fs : List (Bytes × GoVal)) (es : List (Bytes × Bytes)), GoVal.OkFields fs → GoVal.jsonFields fs = some es →
    ∀ e ∈ es, IsAscii e.1 ∧ WellFormed e.2
  | [], es, _, h => by
    simp only [GoVal.jsonFields, Option.some.injEq] at h; subst h
    simp
  | (k, v) :: fs, es, hok, h => by
    simp only [GoVal.jsonFields] at h
    split at h
    · rename_i e es' h1 h2
      injection h with h; subst h
      intro x hx
      rcases List.mem_cons.mp hx with rfl | hx
      · exact ⟨hok.1, GoVal.json_wellFormed v _ hok.2.1 h1⟩
      · exact GoVal.jsonFields_wellFormed fs es' hok.2.2 h2 x hx
    · cases h
end

end Egts
