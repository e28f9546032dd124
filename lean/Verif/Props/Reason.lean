import Verif.Model.Reason
import Verif.Spec.Reason
import Verif.Proofs.JsonRead
import Verif.Proofs.PkgJsonPlus

/-!
# C114: the reasons of EGTS+ records and their names
-/

namespace Egts
open Json

namespace Reason

theorem lookup_mem {α β : Type} [BEq α] [LawfulBEq α] {l : List (α × β)} {a : α} {b : β} (h : l.lookup a = some b) : (a, b) ∈ l := by
  induction l with
  | nil => simp at h
  | cons p l ih =>
    obtain ⟨x, y⟩ := p
    rw [List.lookup_cons] at h
    by_cases hx : a = x
    · subst hx
      simp at h
      subst h
      exact List.mem_cons_self ..
    · have : (a == x) = false := by simpa using hx
      rw [this] at h
      exact List.mem_cons_of_mem _ (ih h)

theorem int32_signed (x : UInt32) : int32 x = x.toInt32.toInt := by
  show _ = x.toBitVec.toInt
  rw [BitVec.toInt_eq_toNat_cond]
  unfold int32
  show (if x.toNat < 2 ^ 31 then _ else _) = (if 2 * x.toNat < 2 ^ 32 then (x.toNat : Int) else (x.toNat : Int) - 2 ^ 32)
  by_cases h : x.toNat < 2 ^ 31
  · rw [if_pos h, if_pos (by omega)]
  · rw [if_neg h, if_neg (by omega)]

theorem reasonTables : (∀ p ∈ publishedReasons, reasonNames.lookup (p.2 : Int) = some p.1.toUTF8.toList) ∧
    (∀ p ∈ publishedReasons, reasonValues.lookup p.1.toUTF8.toList = some (p.2 : Int)) ∧
    (∀ p ∈ publishedReasons, 0 < p.2 ∧ p.2 < 100) ∧
    (∀ p ∈ reasonNames, ∃ q ∈ publishedReasons, (q.2 : Int) = p.1 ∧ q.1.toUTF8.toList = p.2) ∧
    (∀ p ∈ reasonValues, ∃ q ∈ publishedReasons, (q.2 : Int) = p.2 ∧ q.1.toUTF8.toList = p.1) ∧
    (∀ p ∈ reasonNames, ∀ c ∈ p.2, 65 ≤ c ∧ c < 128) ∧ (∀ p ∈ reasonNames, p.2 ≠ []) := by
  decide +kernel

theorem decimal (i : Int) : IsDecimal i (decInt i) := by
  have h := decNat_int i.natAbs
  exact ⟨decNat i.natAbs, by unfold decInt; split <;> rfl, h.ne, h.digits, h.head, decNat_val _⟩

theorem decimal_inj {i j : Int} {t : Bytes} (hi : IsDecimal i t) (hj : IsDecimal j t) : i = j := by
  obtain ⟨ds, e, n, d, _, v⟩ := hi
  obtain ⟨es, e', n', d', _, v'⟩ := hj
  have key : ∀ {xs ys : Bytes}, (∀ c ∈ ys, isDigit c = true) → ys = 45 :: xs → False := by
    intro xs ys h e
    have := h 45 (by rw [e]; exact List.mem_cons_self ..)
    exact absurd this (by decide)
  rw [e] at e'
  by_cases h1 : i < 0 <;> by_cases h2 : j < 0
  · rw [if_pos h1, if_pos h2] at e'; cases e'; omega
  · rw [if_pos h1, if_neg h2] at e'; exact (key d' e'.symm).elim
  · rw [if_neg h1, if_pos h2] at e'; exact (key d e').elim
  · rw [if_neg h1, if_neg h2] at e'; cases e'; omega

theorem decimal_start {i : Int} {t : Bytes} (h : IsDecimal i t) : ∃ c r, t = c :: r ∧ (c = 45 ∨ isDigit c = true) := by
  obtain ⟨ds, e, n, d, _, v⟩ := h
  cases ds with
  | nil => exact absurd rfl n
  | cons c r =>
    by_cases h : i < 0
    · exact ⟨45, c :: r, by rw [e, if_pos h], .inl rfl⟩
    · exact ⟨c, r, by rw [e, if_neg h], .inr (d c (List.mem_cons_self ..))⟩

theorem decimal_low {i : Int} {t : Bytes} (h : IsDecimal i t) : ∃ c ∈ t, c < 65 := by
  obtain ⟨c, r, e, h⟩ := decimal_start h
  refine ⟨c, by rw [e]; exact List.mem_cons_self .., ?_⟩
  rcases h with rfl | h
  · decide
  · unfold isDigit at h
    simp only [Bool.and_eq_true, decide_eq_true_eq] at h
    rw [UInt8.lt_iff_toNat_lt]
    have := UInt8.le_iff_toNat_le.mp h.2
    exact Nat.lt_of_le_of_lt this (by decide)

theorem not_published_lookup {x : UInt32} (h : ∀ name, ¬ PublishedAs x.toNat name) : reasonNames.lookup (int32 x) = none := by
  cases e : reasonNames.lookup (int32 x) with
  | none => rfl
  | some s =>
    obtain ⟨q, hq, h1, h2⟩ := reasonTables.2.2.2.1 _ (lookup_mem e)
    refine absurd ⟨q, hq, ?_, h2⟩ (h s)
    simp only at h1
    have := reasonTables.2.2.1 q hq
    unfold int32 at h1
    have hx := UInt32.toNat_lt x
    by_cases hl : x.toNat < 2 ^ 31
    · rw [if_pos hl] at h1; omega
    · rw [if_neg hl] at h1; omega

theorem published_lookup {n : Nat} {name : Bytes} (h : PublishedAs n name) : reasonNames.lookup (n : Int) = some name := by
  obtain ⟨p, hp, rfl, rfl⟩ := h
  exact reasonTables.1 p hp

theorem published_small {n : Nat} {name : Bytes} (h : PublishedAs n name) : 0 < n ∧ n < 100 := by
  obtain ⟨p, hp, rfl, rfl⟩ := h
  exact reasonTables.2.2.1 p hp

theorem int32_small {x : UInt32} (h : x.toNat < 100) : int32 x = x.toNat := by
  unfold int32
  rw [if_pos (by omega)]

theorem ofInt_small {n : Nat} (h : n < 100) : UInt32.ofInt (n : Int) = UInt32.ofNat n := by
  have e : (UInt32.ofNat n).toNat = n := by rw [UInt32.toNat_ofNat']; exact Nat.mod_eq_of_lt (by omega)
  have := int32_bits (UInt32.ofNat n)
  rwa [int32_small (by omega), e] at this

theorem read_number (t : Bytes) {i : Int} (h : IsDecimal i t) (y : UInt32) :
    reasonUnmarshal y t = if -2 ^ 31 ≤ i ∧ i < 2 ^ 31 then (UInt32.ofInt i, .ok ()) else (y, .error (.err .proto)) := by
  obtain ⟨c, r, e, hc⟩ := decimal_start h
  have hne : c ≠ 34 ∧ isWs c = false ∧ c ≠ 110 := by
    rcases hc with rfl | hc
    · exact ⟨by decide, by decide, by decide⟩
    · rcases isDigit_cases hc with rfl | rfl | rfl | rfl | rfl | rfl | rfl | rfl | rfl | rfl <;> exact ⟨by decide, by decide, by decide⟩
  have hj : jsonInt32 t = if -2 ^ 31 ≤ i ∧ i < 2 ^ 31 then some i else none := by
    obtain ⟨ds, e1, n, d, z, v⟩ := h
    have hip : IntPart ds := ⟨n, d, z⟩
    have hs : skipWs t = t := by rw [e]; exact skipWs_cons hne.2.1
    have hp : parseIntPart ds = some (ds, []) := by
      have := parseIntPart_eq (rest := []) hip (by intro c hc; simp at hc)
      rwa [List.append_nil] at this
    unfold jsonInt32
    rw [hs]
    have hm : parseMinus t = (decide (i < 0), ds) := by
      by_cases hi : i < 0
      · rw [e1, if_pos hi]; simp [parseMinus, hi]
      · rw [e1, if_neg hi]
        have := parseMinus_digits (rest := []) hip
        rw [List.append_nil] at this
        rw [this]; simp [hi]
    split
    · injection e with e2 _
      exact absurd e2.symm hne.2.2
    · rw [hm]
      simp only [hp]
      have hv : (if decide (i < 0) = true then -(digitsVal ds : Int) else digitsVal ds) = i := by
        by_cases hi : i < 0
        · simp only [hi, decide_true, if_true]; omega
        · simp only [hi, decide_false, Bool.false_eq_true, if_false]; omega
      rw [hv]
      have hw : skipWs [] = [] := rfl
      simp only [hw, true_and]
  have hu : unmarshalJSONEnum reasonValues t = match jsonInt32 t with | some v => .ok v | none => .error (.err .proto) := by
    unfold unmarshalJSONEnum
    split
    · exact absurd e (by simp)
    · injection e with e3 _
      exact absurd e3.symm hne.1
    · rfl
  unfold reasonUnmarshal
  rw [hu, hj]
  by_cases hr : -2 ^ 31 ≤ i ∧ i < 2 ^ 31
  · rw [if_pos hr, if_pos hr]
  · rw [if_neg hr, if_neg hr]

theorem plain_chars (s : Bytes) (h : ∀ c ∈ s, 32 ≤ c ∧ c ≠ 34 ∧ c ≠ 92) (r : Bytes) : parseChars (s ++ 34 :: r) = some (s, r) := by
  induction s with
  | nil => simp [parseChars]
  | cons c s ih =>
    obtain ⟨h1, h2, h3⟩ := h c (List.mem_cons_self ..)
    have ih := ih (fun c hc => h c (List.mem_cons_of_mem _ hc))
    rw [List.cons_append, parseChars]
    · rw [if_neg (by rintro (h | h); · exact absurd h1 (by simpa using h)
                     · exact h3 h), ih]
    · exact h2
    · intro _ _ _ _ _ e; exact absurd e h3
    · intro _ _ e; exact absurd e h3

theorem parse_quoted (s : Bytes) (h : ∀ c ∈ s, 32 ≤ c ∧ c ≠ 34 ∧ c ≠ 92) : parseJson (quoted s) = some (.str s) := by
  unfold parseJson quoted
  rw [parseValue]
  rw [skipWs_cons (by decide)]
  simp only [plain_chars s h []]
  rfl

end Reason
open Reason

/-- `String` gives the published name of a reason, and of any other number its decimal text. -/
theorem C114_string (x : UInt32) : (∀ name, PublishedAs x.toNat name → reasonString x = name) ∧
    ((∀ name, ¬ PublishedAs x.toNat name) → IsDecimal x.toInt32.toInt (reasonString x)) := by
  constructor
  · intro name h
    unfold reasonString enumName
    rw [int32_small (published_small h).2, published_lookup h]
  · intro h
    unfold reasonString enumName
    rw [not_published_lookup h, ← int32_signed]
    exact decimal _

/-- Different reasons have different texts. -/
theorem C114_distinct (a b : UInt32) (h : reasonString a = reasonString b) : a = b := by
  have inj : int32 a = int32 b → a = b := fun e => by rw [← int32_bits a, ← int32_bits b, e]
  have mixed : ∀ {u v : UInt32} {s : Bytes}, reasonNames.lookup (int32 u) = some s → reasonNames.lookup (int32 v) = none →
      reasonString u = reasonString v → False := by
    intro u v s hu hv h
    unfold reasonString enumName at h
    rw [hu, hv] at h
    simp only at h
    obtain ⟨c, hc, hl⟩ := decimal_low (decimal (int32 v))
    rw [← h] at hc
    have := (reasonTables.2.2.2.2.2.1 _ (lookup_mem hu) c hc).1
    exact absurd hl (by simpa using this)
  cases ea : reasonNames.lookup (int32 a) with
  | none =>
    cases eb : reasonNames.lookup (int32 b) with
    | none =>
      unfold reasonString enumName at h
      rw [ea, eb] at h
      simp only at h
      exact inj (decimal_inj (decimal _) (h ▸ decimal (int32 b)))
    | some s => exact (mixed eb ea h.symm).elim
  | some s =>
    cases eb : reasonNames.lookup (int32 b) with
    | none => exact (mixed ea eb h).elim
    | some s' =>
      unfold reasonString enumName at h
      rw [ea, eb] at h
      simp only at h
      subst h
      obtain ⟨q, hq, h1, h2⟩ := reasonTables.2.2.2.1 _ (lookup_mem ea)
      obtain ⟨q', hq', h1', h2'⟩ := reasonTables.2.2.2.1 _ (lookup_mem eb)
      have e := reasonTables.2.1 q hq
      have e' := reasonTables.2.1 q' hq'
      rw [h2] at e
      rw [h2', e] at e'
      simp only [Option.some.injEq] at e'
      exact inj (h1.symm.trans (e'.trans h1'))

/-- A number in decimal, as `json.Marshal` writes the reasons, is read as that reason, named or not; one that does not fit 32 bits is
refused, and the variable stays as it was. -/
theorem C114_number (y : UInt32) (i : Int) (t : Bytes) (h : IsDecimal i t) :
    (∀ x : UInt32, x.toInt32.toInt = i → reasonUnmarshal y t = (x, .ok ())) ∧
    ((i < -2147483648 ∨ 2147483647 < i) → reasonUnmarshal y t = (y, .error (.err .proto))) := by
  constructor
  · rintro x rfl
    rw [read_number t h, if_pos (by rw [← int32_signed]; exact int32_range x), ← int32_signed, int32_bits]
  · intro hi
    rw [read_number t h, if_neg (by omega)]

/-- A published name in quotation marks is read as its reason. -/
theorem C114_name (y : UInt32) (n : Nat) (name : Bytes) (h : PublishedAs n name) :
    reasonUnmarshal y (quoted name) = (UInt32.ofNat n, .ok ()) := by
  have hm := lookup_mem (published_lookup h)
  have hc : ∀ c ∈ name, 32 ≤ c ∧ c ≠ 34 ∧ c ≠ 92 := by
    obtain ⟨p, hp, rfl, rfl⟩ := h
    revert p
    decide +kernel
  have hl : reasonValues.lookup name = some (n : Int) := by
    obtain ⟨p, hp, rfl, rfl⟩ := h
    exact reasonTables.2.1 p hp
  have hu : unmarshalJSONEnum reasonValues (quoted name) = .ok (n : Int) := by
    have := parse_quoted name hc
    unfold quoted at this ⊢
    simp only [unmarshalJSONEnum, this, hl]
  unfold reasonUnmarshal
  rw [hu]
  simp only [ofInt_small (published_small h).2]

/-- Of the texts that begin with a quotation mark just the JSON strings that denote a published name are read, as the reason of that name;
at any other the variable stays as it was. -/
theorem C114_quoted (y : UInt32) (r : Bytes) :
    (∃ n name, PublishedAs n name ∧ parseJson (34 :: r) = some (.str name) ∧ reasonUnmarshal y (34 :: r) = (UInt32.ofNat n, .ok ())) ∨
    ((∀ n name, PublishedAs n name → parseJson (34 :: r) ≠ some (.str name)) ∧ reasonUnmarshal y (34 :: r) = (y, .error (.err .proto))) := by
  have look : ∀ s, (∃ n, PublishedAs n s ∧ reasonValues.lookup s = some (n : Int)) ∨ ((∀ n, ¬ PublishedAs n s) ∧ reasonValues.lookup s = none) := by
    intro s
    cases e : reasonValues.lookup s with
    | none =>
      refine .inr ⟨?_, rfl⟩
      rintro n ⟨p, hp, rfl, rfl⟩
      rw [reasonTables.2.1 p hp] at e
      cases e
    | some v =>
      obtain ⟨q, hq, h1, h2⟩ := reasonTables.2.2.2.2.1 _ (lookup_mem e)
      exact .inl ⟨q.2, ⟨q, hq, rfl, h2⟩, by rw [h1]⟩
  have other : (∀ s, parseJson (34 :: r) ≠ some (.str s)) → reasonUnmarshal y (34 :: r) = (y, .error (.err .proto)) := by
    intro h
    have hu : unmarshalJSONEnum reasonValues (34 :: r) = .error (.err .proto) := by
      unfold unmarshalJSONEnum
      simp only
    unfold reasonUnmarshal
    rw [hu]
  by_cases hs : ∃ s, parseJson (34 :: r) = some (.str s)
  · obtain ⟨s, hs⟩ := hs
    rcases look s with ⟨n, hp, hl⟩ | ⟨hn, hl⟩
    · refine .inl ⟨n, s, hp, hs, ?_⟩
      unfold reasonUnmarshal unmarshalJSONEnum
      simp only [hs, hl, ofInt_small (published_small hp).2]
    · refine .inr ⟨?_, ?_⟩
      · intro n name hp e
        rw [hs] at e
        cases e
        exact hn n hp
      · unfold reasonUnmarshal unmarshalJSONEnum
        simp only [hs, hl]
  · refine .inr ⟨fun n name _ e => hs ⟨name, e⟩, other fun s e => hs ⟨s, e⟩⟩

/-- Full statement of C114 (not provable): a reason is read back from its text in quotation marks. That is so of the published reasons
only: the text of any other is refused. -/
theorem C114_false (x y : UInt32) (h : ∀ name, ¬ PublishedAs x.toNat name) :
    reasonUnmarshal y (quoted (reasonString x)) = (y, .error (.err .proto)) := by
  have hd := (C114_string x).2 h
  rcases C114_quoted y (reasonString x ++ [34]) with ⟨n, name, hp, hj, _⟩ | ⟨_, h⟩
  · exfalso
    have hc : ∀ c ∈ reasonString x, 32 ≤ c ∧ c ≠ 34 ∧ c ≠ 92 := by
      have dig : ∀ c, isDigit c = true → 32 ≤ c ∧ c ≠ 34 ∧ c ≠ 92 := by
        intro c h
        rcases isDigit_cases h with rfl | rfl | rfl | rfl | rfl | rfl | rfl | rfl | rfl | rfl <;> decide
      obtain ⟨ds, e, _, d, _, _⟩ := hd
      intro c hc
      rw [e] at hc
      split at hc
      · rcases List.mem_cons.mp hc with rfl | hc
        · decide
        · exact dig c (d c hc)
      · exact dig c (d c hc)
    have := parse_quoted _ hc
    unfold quoted at this
    rw [hj] at this
    cases this
    obtain ⟨c, hcm, hl⟩ := decimal_low hd
    have := (reasonTables.2.2.2.2.2.1 _ (lookup_mem (published_lookup hp)) c hcm).1
    exact absurd hl (by simpa using this)
  · exact h

/-- Without a byte to look at the reader panics, and only then; after an error the variable is as it was. -/
theorem C114_panic (y : UInt32) (data : Bytes) : ((reasonUnmarshal y data).2 = .error .panic ↔ data = []) ∧
    ((reasonUnmarshal y data).2 ≠ .ok () → (reasonUnmarshal y data).1 = y) := by
  have key : unmarshalJSONEnum reasonValues data = .error .panic ↔ data = [] := by
    unfold unmarshalJSONEnum
    split
    · simp
    · simp only [reduceCtorEq, iff_false]
      split
      · split <;> simp
      · simp
    · rename_i h _
      refine iff_of_false ?_ h
      split <;> simp
  unfold reasonUnmarshal
  constructor
  · rw [← key]
    cases unmarshalJSONEnum reasonValues data with
    | error e => simp
    | ok v => simp
  · cases unmarshalJSONEnum reasonValues data with
    | error e => simp
    | ok v => simp

/-- `null`, which by the convention of `encoding/json` changes nothing, sets the reason to 0, which is no published reason. -/
theorem C114_null (y : UInt32) : reasonUnmarshal y (go!"null") = (0, .ok ()) ∧ ∀ name, ¬ PublishedAs 0 name := by
  refine ⟨by with_unfolding_all rfl, fun name h => ?_⟩
  exact absurd (published_small h).1 (by decide)

example : PublishedAs 7 (go!"STOP") ∧ reasonString 7 = (go!"STOP") ∧ reasonString 0 = (go!"0") ∧
    reasonString 4294967295 = (go!"-1") := by
  refine ⟨⟨("STOP", 7), by decide, rfl, by decide +kernel⟩, by decide +kernel, by decide +kernel, by decide +kernel⟩

/-- A name and a number are read, also a name written with an escape; a quoted number, a name that is not published and a fraction are not. -/
example : reasonUnmarshal 5 (go!"\"STOP\"") = (7, .ok ()) ∧ reasonUnmarshal 5 (go!"-1") = (4294967295, .ok ()) ∧
    reasonUnmarshal 5 (go!"\"STO\\u0050\"") = (7, .ok ()) ∧
    reasonUnmarshal 5 (go!"\"0\"") = (5, .error (.err .proto)) ∧ reasonUnmarshal 5 (go!"\"stop\"") = (5, .error (.err .proto)) ∧
    reasonUnmarshal 5 (go!"7.0") = (5, .error (.err .proto)) := by
  refine ⟨by with_unfolding_all rfl, by with_unfolding_all rfl, by with_unfolding_all rfl, by with_unfolding_all rfl,
    by with_unfolding_all rfl, by with_unfolding_all rfl⟩

end Egts
