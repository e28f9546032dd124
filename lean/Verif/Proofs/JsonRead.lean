import Verif.Proofs.Json

/-! # Reading stored records back -/

namespace Egts
open Json

/-- The text denotes the value wherever a value may stand; `c` levels of recursion are enough. -/
structure Reads (t : Bytes) (v : Value) (c : Nat) : Prop where
  start : ∃ a r, t = a :: r ∧ isWs a = false ∧ a ≠ 93
  reads : ∀ n, c ≤ n → ∀ rest, Delim rest → parseValue n (t ++ rest) = some (v, rest)

theorem Reads.mono {t : Bytes} {v : Value} {c c' : Nat} (h : Reads t v c) (hc : c ≤ c') : Reads t v c' :=
  ⟨h.start, fun n hn => h.reads n (by omega)⟩

theorem skipWs_cons {a : UInt8} {r : Bytes} (h : isWs a = false) : skipWs (a :: r) = a :: r := by
  simp [skipWs, h]

theorem isDigit_cases {c : UInt8} (h : isDigit c = true) :
    c = 48 ∨ c = 49 ∨ c = 50 ∨ c = 51 ∨ c = 52 ∨ c = 53 ∨ c = 54 ∨ c = 55 ∨ c = 56 ∨ c = 57 := by
  have h1 : 48 ≤ c.toNat ∧ c.toNat ≤ 57 := by
    simpa [isDigit, UInt8.le_iff_toNat_le] using h
  have h2 : c = UInt8.ofNat c.toNat := by simp
  obtain ⟨ha, hb⟩ := h1
  rw [h2]
  interval_cases c.toNat <;> decide

theorem parseValue_num {c : UInt8} {r : Bytes} (n : Nat) (h : c = 45 ∨ isDigit c = true) :
    parseValue (n + 1) (c :: r) = (parseNumber (c :: r)).map (fun p => (.num p.1, p.2)) := by
  have h' : c = 45 ∨ c = 48 ∨ c = 49 ∨ c = 50 ∨ c = 51 ∨ c = 52 ∨ c = 53 ∨ c = 54 ∨ c = 55 ∨ c = 56 ∨ c = 57 :=
    h.imp id isDigit_cases
  rcases h' with h | h | h | h | h | h | h | h | h | h | h <;> subst h <;> rfl

theorem Reads.num {t : Bytes} {q : ℚ} {c : UInt8} {r : Bytes} (ht : t = c :: r) (hc : c = 45 ∨ isDigit c = true)
    (h : ∀ rest, Delim rest → parseNumber (t ++ rest) = some (q, rest)) : Reads t (.num q) 1 := by
  refine ⟨⟨c, r, ht, ?_, ?_⟩, ?_⟩
  · rcases hc with rfl | hc
    · rfl
    · rcases isDigit_cases hc with h | h | h | h | h | h | h | h | h | h <;> subst h <;> rfl
  · rintro rfl
    rcases hc with hc | hc
    · exact absurd hc (by decide)
    · exact absurd hc (by decide)
  · intro n hn rest hr
    obtain ⟨k, rfl⟩ : ∃ k, n = k + 1 := ⟨n - 1, by omega⟩
    subst ht
    rw [List.cons_append, parseValue_num k hc, ← List.cons_append, h rest hr]
    rfl

theorem decNat_start (n : Nat) : ∃ c r, decNat n = c :: r ∧ isDigit c = true := by
  have h := decNat_int n
  cases hd : decNat n with
  | nil => exact absurd hd h.ne
  | cons c r => exact ⟨c, r, rfl, h.digits c (by rw [hd]; exact List.mem_cons_self ..)⟩

theorem reads_decNat (n : Nat) : Reads (decNat n) (.num (n : ℚ)) 1 := by
  obtain ⟨c, r, h1, h2⟩ := decNat_start n
  refine Reads.num h1 (.inr h2) (fun rest hr => ?_)
  rw [parseNumber_int (decNat_int n) hr, decNat_val]

theorem reads_decInt (i : Int) : Reads (decInt i) (.num (i : ℚ)) 1 := by
  unfold decInt
  obtain ⟨c, r, h1, h2⟩ := decNat_start i.natAbs
  split
  · refine Reads.num rfl (.inl rfl) (fun rest hr => ?_)
    have := parseNumber_int (decNat_int i.natAbs) hr
    rw [decNat_val] at this
    have h3 := parseNumber_minus (c := c) (r := r ++ rest) (by rw [h1]; rfl) h2 this
    rw [List.cons_append, h3]
    congr 2
    have h4 : (i.natAbs : Int) = -i := by omega
    have h5 : ((i.natAbs : Int) : ℚ) = ((-i : Int) : ℚ) := by rw [h4]
    have h6 : (i.natAbs : ℚ) = -(i : ℚ) := by rw [← Int.cast_natCast, h5, Int.cast_neg]
    rw [h6, neg_neg]
  · refine Reads.num h1 (.inr h2) (fun rest hr => ?_)
    rw [parseNumber_int (decNat_int i.natAbs) hr, decNat_val]
    congr 2
    have h4 : (i.natAbs : Int) = i := by omega
    rw [← Int.cast_natCast, h4]

theorem reads_jsonFloat {f : ℚ} (hd : IsDouble f) : ∃ q, rnd q = f ∧ Reads (jsonFloat f) (.num q) 1 := by
  obtain ⟨⟨c, r, h1, h2⟩, q, h3, h4⟩ := parse_jsonFloat hd
  exact ⟨q, h4, Reads.num h1 h2 h3⟩

/-! ## Strings -/

theorem hexDigit_escape (c : UInt8) : unicodeEscape 48 48 (hexDigit (c >>> 4)) (hexDigit (c &&& 15)) = some (utf8 c.toNat) := by
  have h : ∀ n : Fin 256, unicodeEscape 48 48 (hexDigit (UInt8.ofNat n >>> 4)) (hexDigit (UInt8.ofNat n &&& 15)) =
      some (utf8 n) := by decide +kernel
  have := h ⟨c.toNat, c.toNat_lt⟩
  simpa using this

theorem parseChars_escape (e u : UInt8) (he : e ≠ 117) (hu : simpleEscape e = some u) (r : Bytes) :
    parseChars (92 :: e :: r) = (parseChars r).map (fun p => (u :: p.1, p.2)) := by
  conv_lhs => unfold parseChars
  split
  · rename_i heq; cases heq
  · rename_i heq; injection heq with h _; exact absurd h (by decide)
  · rename_i heq; injection heq with _ h; injection h with h _; exact absurd h he
  · rename_i heq; injection heq with _ h; injection h with h h'; subst h; subst h'
    rw [hu]; cases parseChars r <;> rfl
  · rename_i heq; injection heq with h h'; subst h; subst h'; exfalso; simp_all

theorem parseChars_jsonChar {c : UInt8} (hc : c < 128) (r : Bytes) :
    parseChars (jsonChar c ++ r) = (parseChars r).map (fun p => (c :: p.1, p.2)) := by
  unfold jsonChar
  split
  · rename_i h
    rcases h with h | h <;> subst h <;> exact parseChars_escape _ _ (by decide) rfl r
  split
  · rename_i h; subst h; exact parseChars_escape _ _ (by decide) rfl r
  split
  · rename_i h; subst h; exact parseChars_escape _ _ (by decide) rfl r
  split
  · rename_i h; subst h; exact parseChars_escape _ _ (by decide) rfl r
  split
  · have h128 : c.toNat < 128 := by simpa [UInt8.lt_iff_toNat_lt] using hc
    have hu : utf8 c.toNat = [c] := by simp [utf8, h128]
    show (match unicodeEscape 48 48 (hexDigit (c >>> 4)) (hexDigit (c &&& 15)), parseChars r with
      | some u, some (s, r) => some (u ++ s, r)
      | _, _ => none) = _
    rw [hexDigit_escape, hu]
    cases parseChars r <;> rfl
  · rename_i h1 _ _ _ h5
    have h32 : ¬ c < 32 := fun h => h5 (.inl h)
    push Not at h1
    show parseChars (c :: r) = _
    have : parseChars (c :: r) = if c < 32 ∨ c = 92 then none else
        match parseChars r with
        | some (s, r) => some (c :: s, r)
        | none => none := by
      conv_lhs => unfold parseChars
      split
      · rename_i heq; cases heq
      · rename_i heq; injection heq with h _; exact absurd h h1.1
      · rename_i heq; injection heq with h _; exact absurd h h1.2
      · rename_i heq; injection heq with h _; exact absurd h h1.2
      · rename_i heq; injection heq with h h'; subst h; subst h'; rfl
    rw [this, if_neg (by rintro (h | h); exacts [absurd h h32, h1.2 h])]
    cases parseChars r <;> rfl

theorem parseChars_jsonString {s : Bytes} (hs : IsAscii s) (r : Bytes) :
    parseChars (s.flatMap jsonChar ++ 34 :: r) = some (s, r) := by
  induction s with
  | nil => rfl
  | cons c s ih =>
    rw [List.flatMap_cons, List.append_assoc, parseChars_jsonChar (hs c (List.mem_cons_self ..)),
      ih (fun x hx => hs x (List.mem_cons_of_mem _ hx))]
    rfl

theorem reads_jsonString {s : Bytes} (hs : IsAscii s) : Reads (jsonString s) (.str s) 1 := by
  refine ⟨⟨34, s.flatMap jsonChar ++ [34], rfl, rfl, by decide⟩, fun n hn rest _ => ?_⟩
  obtain ⟨k, rfl⟩ : ∃ k, n = k + 1 := ⟨n - 1, by omega⟩
  rw [show jsonString s ++ rest = 34 :: (s.flatMap jsonChar ++ 34 :: rest) by simp [jsonString]]
  show (parseChars (s.flatMap jsonChar ++ 34 :: rest)).map (fun p => ((Value.str p.1, p.2) : Value × Bytes)) = _
  rw [parseChars_jsonString hs]
  rfl

theorem parseString_jsonString {s : Bytes} (hs : IsAscii s) (r : Bytes) : parseString (jsonString s ++ r) = some (s, r) := by
  rw [show jsonString s ++ r = 34 :: (s.flatMap jsonChar ++ 34 :: r) by simp [jsonString]]
  exact parseChars_jsonString hs r

/-! ## Arrays and objects -/

theorem reads_null : Reads (go!"null") .null 1 := by
  refine ⟨⟨110, _, rfl, rfl, by decide⟩, fun n hn rest _ => ?_⟩
  obtain ⟨k, rfl⟩ : ∃ k, n = k + 1 := ⟨n - 1, by omega⟩
  rfl

theorem delim_comma (r : Bytes) : Delim (44 :: r) := .inr ⟨44, r, rfl, .inl rfl⟩
theorem delim_bracket (r : Bytes) : Delim (93 :: r) := .inr ⟨93, r, rfl, .inr (.inl rfl)⟩
theorem delim_brace (r : Bytes) : Delim (125 :: r) := .inr ⟨125, r, rfl, .inr (.inr (.inl rfl))⟩
theorem delim_newline (r : Bytes) : Delim (10 :: r) := .inr ⟨10, r, rfl, .inr (.inr (.inr rfl))⟩

theorem intercalate_cons (a b : Bytes) (l : List Bytes) :
    ([44] : Bytes).intercalate (a :: b :: l) = a ++ 44 :: ([44] : Bytes).intercalate (b :: l) := by
  simp [List.intercalate]

theorem parseElems_eq {c : Nat} :
    ∀ (es : List (Bytes × Value)), es ≠ [] → (∀ e ∈ es, Reads e.1 e.2 c) → ∀ n, c + es.length ≤ n → ∀ rest,
      parseElems n (([44] : Bytes).intercalate (es.map (·.1)) ++ 93 :: rest) = some (es.map (·.2), rest) := by
  intro es
  induction es with
  | nil => intro h; exact absurd rfl h
  | cons e es ih =>
    intro _ h n hn rest
    obtain ⟨k, rfl⟩ : ∃ k, n = k + 1 := ⟨n - 1, by simp at hn; omega⟩
    simp only [List.length_cons] at hn
    have he := h e (List.mem_cons_self ..)
    cases es with
    | nil =>
      have := he.reads k (by omega) (93 :: rest) (delim_bracket _)
      simp only [List.map_cons, List.map_nil, List.intercalate, List.intersperse_singleton, List.flatten_cons, List.flatten_nil,
        List.append_nil]
      unfold parseElems
      rw [this]
      rfl
    | cons e2 es =>
      have h2 := ih (by simp) (fun x hx => h x (List.mem_cons_of_mem _ hx)) k (by simp at hn ⊢; omega) rest
      simp only [List.map_cons] at h2 ⊢
      rw [intercalate_cons, List.append_assoc, List.cons_append]
      unfold parseElems
      rw [he.reads k (by omega) _ (delim_comma _)]
      show (parseElems k _).map _ = _
      rw [h2]
      rfl

theorem reads_jsonSlice {c : Nat} {es : List (Bytes × Value)} (hne : es ≠ []) (h : ∀ e ∈ es, Reads e.1 e.2 c) :
    Reads (jsonSlice (es.map (·.1))) (.arr (es.map (·.2))) (c + es.length + 1) := by
  have hne' : es.map (·.1) ≠ [] := by simpa using hne
  unfold jsonSlice
  rw [if_neg hne']
  refine ⟨⟨91, _, rfl, rfl, by decide⟩, fun n hn rest _ => ?_⟩
  obtain ⟨k, rfl⟩ : ∃ k, n = k + 1 := ⟨n - 1, by omega⟩
  have hp := parseElems_eq es hne h k (by omega) rest
  have hst : ∃ a r, ([44] : Bytes).intercalate (es.map (·.1)) ++ 93 :: rest = a :: r ∧ isWs a = false ∧ a ≠ 93 := by
    cases es with
    | nil => exact absurd rfl hne
    | cons e es =>
      obtain ⟨a, r, h1, h2, h3⟩ := (h e (List.mem_cons_self ..)).start
      cases es with
      | nil => exact ⟨a, r ++ 93 :: rest, by simp [List.intercalate, h1], h2, h3⟩
      | cons e2 es =>
        refine ⟨a, ?_, ?_, h2, h3⟩
        · exact r ++ 44 :: ([44] : Bytes).intercalate ((e2 :: es).map (·.1)) ++ 93 :: rest
        · simp only [List.map_cons]; rw [intercalate_cons, h1]; simp
  obtain ⟨a, r, h1, h2, h3⟩ := hst
  rw [show [91] ++ ([44] : Bytes).intercalate (es.map (·.1)) ++ [93] ++ rest =
    91 :: (([44] : Bytes).intercalate (es.map (·.1)) ++ 93 :: rest) by simp]
  rw [h1] at hp ⊢
  show (match skipWs (a :: r) with
    | 93 :: r => some (Value.arr [], r)
    | _ => (parseElems k (a :: r)).map (fun p : List Value × Bytes => (.arr p.1, p.2))) = _
  rw [skipWs_cons h2, hp]
  split
  · rename_i heq; injection heq with h _; exact absurd h h3
  · rfl

theorem parseMembers_eq {c : Nat} :
    ∀ (ms : List (Bytes × Bytes × Value)), ms ≠ [] → (∀ m ∈ ms, IsAscii m.1 ∧ Reads m.2.1 m.2.2 c) → ∀ n, c + ms.length ≤ n → ∀ rest,
      parseMembers n (([44] : Bytes).intercalate (ms.map (fun m => jsonString m.1 ++ [58] ++ m.2.1)) ++ 125 :: rest) =
        some (ms.map (fun m => (m.1, m.2.2)), rest) := by
  intro ms
  induction ms with
  | nil => intro h; exact absurd rfl h
  | cons e ms ih =>
    intro _ h n hn rest
    obtain ⟨k, rfl⟩ : ∃ k, n = k + 1 := ⟨n - 1, by simp at hn; omega⟩
    simp only [List.length_cons] at hn
    obtain ⟨hk, he⟩ := h e (List.mem_cons_self ..)
    have h58 : ∀ r : Bytes, skipWs (58 :: r) = 58 :: r := fun _ => rfl
    cases ms with
    | nil =>
      have := he.reads k (by omega) (125 :: rest) (delim_brace _)
      simp only [List.map_cons, List.map_nil, List.intercalate, List.intersperse_singleton, List.flatten_cons, List.flatten_nil,
        List.append_nil]
      unfold parseMembers
      rw [List.append_assoc, List.append_assoc, parseString_jsonString hk]
      simp only [List.singleton_append, h58]
      rw [this]
      rfl
    | cons e2 ms =>
      have h2 := ih (by simp) (fun x hx => h x (List.mem_cons_of_mem _ hx)) k (by simp at hn ⊢; omega) rest
      simp only [List.map_cons] at h2 ⊢
      rw [intercalate_cons, List.append_assoc, List.append_assoc, List.append_assoc, List.cons_append]
      unfold parseMembers
      rw [parseString_jsonString hk]
      simp only [List.cons_append, List.nil_append, h58]
      rw [he.reads k (by omega) _ (delim_comma _)]
      show (parseMembers k _).map _ = _
      rw [h2]
      rfl

theorem reads_jsonObject {c : Nat} {ms : List (Bytes × Bytes × Value)} (hne : ms ≠ [])
    (h : ∀ m ∈ ms, IsAscii m.1 ∧ Reads m.2.1 m.2.2 c) :
    Reads (jsonObject (ms.map (fun m => (m.1, m.2.1)))) (.obj (ms.map (fun m => (m.1, m.2.2)))) (c + ms.length + 1) := by
  unfold jsonObject
  rw [List.map_map]
  refine ⟨⟨123, _, rfl, rfl, by decide⟩, fun n hn rest _ => ?_⟩
  obtain ⟨k, rfl⟩ : ∃ k, n = k + 1 := ⟨n - 1, by omega⟩
  have hp := parseMembers_eq ms hne h k (by omega) rest
  have hst : ∃ r, ([44] : Bytes).intercalate (ms.map (fun m => jsonString m.1 ++ [58] ++ m.2.1)) ++ 125 :: rest = 34 :: r := by
    cases ms with
    | nil => exact absurd rfl hne
    | cons e ms =>
      cases ms with
      | nil => exact ⟨_, by simp [List.intercalate, jsonString]; rfl⟩
      | cons e2 ms => exact ⟨_, by simp only [List.map_cons]; rw [intercalate_cons]; simp [jsonString]; rfl⟩
  obtain ⟨r, h1⟩ := hst
  rw [show [123] ++ ([44] : Bytes).intercalate (ms.map ((fun m => jsonString m.1 ++ [58] ++ m.2) ∘ fun m => (m.1, m.2.1))) ++ [125] ++ rest =
    123 :: (([44] : Bytes).intercalate (ms.map (fun m => jsonString m.1 ++ [58] ++ m.2.1)) ++ 125 :: rest) by simp [Function.comp_def]]
  rw [h1] at hp ⊢
  show (match skipWs (34 :: r) with
    | 125 :: r => some (Value.obj [], r)
    | _ => (parseMembers k (34 :: r)).map (fun p : List (Bytes × Value) × Bytes => (.obj p.1, p.2))) = _
  rw [skipWs_cons rfl, hp]
  rfl

end Egts
