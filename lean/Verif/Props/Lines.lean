import Verif.Proofs.Lines
import Verif.Proofs.Indented
import Verif.Proofs.Saved
import Verif.Props.Json

/-!
# C109: the texts have the promised form

The text of a package (`C109_package`) and of a record in a storage (`C109_record`, `C109_stored`) is one line
of UTF-8 without control characters, without `<`, `>` and `&`, and without the line separators of Unicode:
whatever the strings of the package are, even bytes that are no UTF-8, they cannot end the line or a script.
A number is written with an exponent exactly if it is not zero and less than a millionth or not less than
10^21 (`C109_exponent`). The text printed by the program is indented by four blanks for every open bracket
(`C109_indented`, `C109_printed`).
-/

namespace Egts
open Json

/-- The text of a package, if there is one. -/
theorem C109_package (nils : Nat → Bool) (p : Package) (b : Bytes) (h : p.Readable) (hb : p.toBytes nils = some b) : OneLine b :=
  GoVal.json_oneLine _ _ (package_ok nils p fun r hr rd hrd => (h r hr rd hrd).2) hb

/-- In bytes: none of the characters in question. -/
theorem C109_bytes (s : Bytes) (h : OneLine s) : (∀ c ∈ s, 32 ≤ c ∧ c ≠ 60 ∧ c ≠ 62 ∧ c ≠ 38) ∧
    ¬[0xE2, 0x80, 0xA8] <:+: s ∧ ¬[0xE2, 0x80, 0xA9] <:+: s := by
  obtain ⟨ns, hns, rfl⟩ := h
  refine ⟨?_, ?_, ?_⟩
  · intro c hc
    obtain ⟨n, hn, hc⟩ := List.mem_flatMap.mp hc
    exact enc_bytes (hns n hn).1 (hns n hn).2 c hc
  · exact no_infix (m := 0x2028) (by decide) (by decide) rfl (by decide) ns fun n hn => ⟨(hns n hn).1, (hns n hn).2.2.2.2.2.1⟩
  · exact no_infix (m := 0x2029) (by decide) (by decide) rfl (by decide) ns fun n hn => ⟨(hns n hn).1, (hns n hn).2.2.2.2.2.2⟩

/-- The text of a record. -/
theorem C109_record (r : NavRecord) (h : r.Ok) : OneLine r.toBytes := by
  have hn : ∀ n, OneLine (decNat n) := fun n => oneLine_tame (numeric_tame (decNat_numeric n))
  have hi : ∀ n, OneLine (decInt n) := fun n => oneLine_tame (numeric_tame (decInt_numeric n))
  have hf : ∀ n, OneLine (jsonFloat n) := fun n => oneLine_tame (numeric_tame (jsonFloat_numeric n))
  have hs : ∀ es : List Bytes, (∀ e ∈ es, OneLine e) → OneLine (jsonSlice es) := by
    intro es he
    unfold jsonSlice
    split
    · exact oneLine_tame (by decide)
    · exact oneLine_append (oneLine_append (oneLine_tame (by decide)) (intercalate_oneLine he)) (oneLine_tame (by decide))
  unfold NavRecord.toBytes
  refine object_oneLine ?_
  simp only [List.forall_mem_cons, List.not_mem_nil, false_implies, implies_true, and_true]
  refine ⟨⟨?_, hn _⟩, ⟨?_, hn _⟩, ⟨?_, hi _⟩, ⟨?_, hi _⟩, ⟨?_, hf _⟩, ⟨?_, hf _⟩, ⟨?_, hn _⟩, ⟨?_, hn _⟩, ⟨?_, hn _⟩, ⟨?_, hn _⟩, ⟨?_, hn _⟩,
    ⟨?_, hn _⟩, ⟨?_, hn _⟩, ⟨?_, hs _ ?_⟩, ⟨?_, hs _ ?_⟩⟩
  case refine_15 =>
    intro e he
    obtain ⟨s, _, rfl⟩ := List.mem_map.mp he
    unfold AnSensor.toJson
    refine object_oneLine ?_
    simp only [List.forall_mem_cons, List.not_mem_nil, false_implies, implies_true, and_true]
    exact ⟨⟨by unfold IsAscii; decide, hn _⟩, by unfold IsAscii; decide, hn _⟩
  case refine_17 =>
    intro e he
    obtain ⟨s, hs, rfl⟩ := List.mem_map.mp he
    unfold LiquidSensor.toJson
    refine object_oneLine ?_
    simp only [List.forall_mem_cons, List.not_mem_nil, false_implies, implies_true, and_true]
    exact ⟨⟨by unfold IsAscii; decide, hn _⟩, ⟨by unfold IsAscii; decide, oneLine_tame (jsonString_tame (h.flags s hs))⟩,
      ⟨by unfold IsAscii; decide, hn _⟩, by unfold IsAscii; decide, hn _⟩
  all_goals (unfold IsAscii; decide)

/-- Whatever arrives on a connection, the texts given to the storages are single lines. -/
theorem C109_stored (env : Env) (ce : ConnEnv) (input : Bytes) (e : End) :
    ∀ r ∈ saves (handleConn env ce input e), OneLine r.toBytes :=
  conn_saves (P := fun r => OneLine r.toBytes) (fun _ _ _ r hr => C109_record r (saved_ok hr)) input e

/-- Exponents. -/
theorem C109_exponent (f : ℚ) : 101 ∈ jsonFloat f ↔ f ≠ 0 ∧ (|f| < rnd (1 / 1000000) ∨ 1000000000000000000000 ≤ |f|) := jsonFloat_exp f

/-- The printed text of a record, if the flags of its sensors contain no brackets. -/
theorem C109_indented (r : NavRecord) (h : ∀ s ∈ r.liquidSensors, ∀ c ∈ s.errorFlag, c ≠ 123 ∧ c ≠ 91 ∧ c ≠ 125 ∧ c ≠ 93) :
    IndentedBy 4 r.indented := by
  have hnum : ∀ (d : Nat) (v : Bytes), Numeric v → (∃ c t, v = c :: t) → LaidOut d v := by
    rintro d v hv ⟨c, t, rfl⟩
    refine laidOut_flat (flat_numeric hv) ⟨c, t, rfl, ?_⟩
    rintro rfl
    rcases hv 32 (List.mem_cons_self ..) with h | h | h | h | h <;> exact absurd h (by decide)
  have hn : ∀ d n, LaidOut d (decNat n) := laidOut_decNat
  have hi : ∀ d n, LaidOut d (decInt n) := by
    intro d n
    refine hnum d _ (decInt_numeric n) ?_
    unfold decInt
    split
    · exact ⟨_, _, rfl⟩
    · obtain ⟨c, t, e, _⟩ := decNat_start n.natAbs
      exact ⟨c, t, e⟩
  have hf : ∀ d f, LaidOut d (jsonFloat f) := by
    intro d f
    refine hnum d _ (jsonFloat_numeric f) ?_
    cases e : jsonFloat f with
    | nil => exact absurd e (jsonFloat_ne f)
    | cons c t => exact ⟨c, t, rfl⟩
  have key : LaidOut 0 r.indented := by
    unfold NavRecord.indented
    refine laidOut_object (by simp) ?_
    simp only [List.forall_mem_cons, List.not_mem_nil, false_implies, implies_true, and_true]
    refine ⟨⟨?_, hn _ _⟩, ⟨?_, hn _ _⟩, ⟨?_, hi _ _⟩, ⟨?_, hi _ _⟩, ⟨?_, hf _ _⟩, ⟨?_, hf _ _⟩, ⟨?_, hn _ _⟩, ⟨?_, hn _ _⟩, ⟨?_, hn _ _⟩,
      ⟨?_, hn _ _⟩, ⟨?_, hn _ _⟩, ⟨?_, hn _ _⟩, ⟨?_, hn _ _⟩, ⟨?_, laidOut_slice ?_⟩, ⟨?_, laidOut_slice ?_⟩⟩
    case refine_15 =>
      intro e he
      obtain ⟨s, _, rfl⟩ := List.mem_map.mp he
      unfold AnSensor.indented
      refine laidOut_object (by simp) ?_
      simp only [List.forall_mem_cons, List.not_mem_nil, false_implies, implies_true, and_true]
      exact ⟨⟨by decide, hn _ _⟩, by decide, hn _ _⟩
    case refine_17 =>
      intro e he
      obtain ⟨s, hs, rfl⟩ := List.mem_map.mp he
      unfold LiquidSensor.indented
      refine laidOut_object (by simp) ?_
      simp only [List.forall_mem_cons, List.not_mem_nil, false_implies, implies_true, and_true]
      exact ⟨⟨by decide, hn _ _⟩, ⟨by decide, laidOut_flat (flat_string (h s hs)) ⟨34, _, rfl, by decide⟩⟩,
        ⟨by decide, hn _ _⟩, by decide, hn _ _⟩
    all_goals decide
  have := key.2 [] trivial
  rw [List.append_nil] at this
  exact lay_indented this

/-- Whatever arrives on a connection, what is printed of it is indented. -/
theorem C109_printed (env : Env) (ce : ConnEnv) (input : Bytes) (e : End) :
    ∀ r ∈ saves (handleConn env ce input e), IndentedBy 4 r.indented := by
  refine conn_saves (P := fun r => IndentedBy 4 r.indented) (fun i c b r hr => C109_indented r ?_) input e
  obtain ⟨rec, d, cl, id, hdec, _, rfl⟩ := saved_from hr
  intro s hs
  simp only [storedAs] at hs
  obtain ⟨x, hx, hs⟩ := List.mem_flatMap.mp hs
  have hx' := hdec x hx
  unfold RecordData.liquids at hs
  split at hs
  · rename_i l hl
    have := hx' _ hl
    rw [List.mem_singleton] at hs
    subst hs
    rcases this with h | h <;> (simp only [h]; decide)
  · cases hs

/-! ## Examples -/

/-- A string that would end a script or a line. -/
example : marshalString (go!"</script>" ++ [10, 0xE2, 0x80, 0xA9, 0xFF]) = go!"\"\\u003c/script\\u003e\\n\\u2029\\ufffd\"" := by
  decide +kernel

example : jsonFloat 100000000000000000000 = go!"100000000000000000000" ∧ jsonFloat 1000000000000000000000 = go!"1e+21" := by
  decide +kernel

example : fullRecord.indented.take 20 = go!"{\n    \"client\": 1335" := by decide +kernel

end Egts
