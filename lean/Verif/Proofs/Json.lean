import Verif.Proofs.JsonFloat

/-! # Reading JSON texts back -/

namespace Egts
open Json

/-! ## Digits -/

/-- A decimal digit as a character. -/
abbrev digitCh (d : Nat) : UInt8 := UInt8.ofNat (48 + d)

theorem digitCh_isDigit {d : Nat} (h : d < 10) : isDigit (digitCh d) = true := by
  interval_cases d <;> rfl

theorem digitCh_val {d : Nat} (h : d < 10) : (digitCh d).toNat - 48 = d := by
  interval_cases d <;> rfl

theorem digitCh_zero {d : Nat} (h : d < 10) (h0 : digitCh d = 48) : d = 0 := by
  interval_cases d <;> first | rfl | (exact absurd h0 (by decide))

theorem digitsVal_append (a b : Bytes) : digitsVal (a ++ b) = digitsVal a * 10 ^ b.length + digitsVal b := by
  have key : ∀ (b : Bytes) (x : Nat), b.foldl (fun a d => 10 * a + (d.toNat - 48)) x =
      x * 10 ^ b.length + b.foldl (fun a d => 10 * a + (d.toNat - 48)) 0 := by
    intro b
    induction b with
    | nil => intro x; simp
    | cons c b ih =>
      intro x
      simp only [List.foldl_cons, List.length_cons]
      rw [ih, ih (10 * 0 + _)]
      ring
  unfold digitsVal
  rw [List.foldl_append, key]

theorem digitsVal_replicate (n : Nat) : digitsVal (List.replicate n 48) = 0 := by
  induction n with
  | zero => rfl
  | succ n ih => rw [List.replicate_succ', digitsVal_append, ih]; rfl

theorem digitsVal_digits (ds : List Nat) (h : ∀ d ∈ ds, d < 10) : digitsVal (ds.reverse.map digitCh) = Nat.ofDigits 10 ds := by
  induction ds with
  | nil => rfl
  | cons d ds ih =>
    rw [List.reverse_cons, List.map_append, digitsVal_append, ih (fun x hx => h x (List.mem_cons_of_mem _ hx)), Nat.ofDigits_cons]
    have : digitsVal ([d].map digitCh) = d := by
      simp only [List.map_cons, List.map_nil, digitsVal, List.foldl_cons, List.foldl_nil]
      rw [digitCh_val (h d (List.mem_cons_self ..))]; omega
    rw [this]; simp; ring

theorem allDigits_map (ds : List Nat) (h : ∀ d ∈ ds, d < 10) : ∀ c ∈ ds.reverse.map digitCh, isDigit c = true := by
  intro c hc
  obtain ⟨d, hd, rfl⟩ := List.mem_map.mp hc
  exact digitCh_isDigit (h d (List.mem_reverse.mp hd))

/-- A digit string as JSON wants its integer part: not empty, no zero in front unless it is alone. -/
structure IntPart (ds : Bytes) : Prop where
  ne : ds ≠ []
  digits : ∀ c ∈ ds, isDigit c = true
  head : ds.head? = some 48 → ds.length = 1

theorem head_reverse_digits {ds : List Nat} (h : ∀ d ∈ ds, d < 10) (hne : ds ≠ []) (hl : ds.getLast hne ≠ 0) :
    (ds.reverse.map digitCh).head? ≠ some 48 := by
  rw [List.head?_map, List.head?_reverse, List.getLast?_eq_some_getLast hne]
  intro hc
  simp only [Option.map_some, Option.some.injEq] at hc
  exact hl (digitCh_zero (h _ (List.getLast_mem hne)) hc)

theorem digits_lt (n : Nat) : ∀ d ∈ Nat.digits 10 n, d < 10 := fun _ hd => Nat.digits_lt_base (by norm_num) hd

theorem decNat_int (n : Nat) : IntPart (decNat n) := by
  unfold decNat
  split
  · exact ⟨by simp, by decide, fun _ => rfl⟩
  · rename_i h0
    have hne : Nat.digits 10 n ≠ [] := Nat.digits_ne_nil_iff_ne_zero.mpr h0
    exact ⟨by simpa using hne, allDigits_map _ (digits_lt n), fun h => absurd h (head_reverse_digits (digits_lt n) hne
      (Nat.getLast_digit_ne_zero 10 h0))⟩

theorem decNat_val (n : Nat) : digitsVal (decNat n) = n := by
  unfold decNat
  split
  · rename_i h; subst h; rfl
  · exact (digitsVal_digits _ (digits_lt n)).trans (Nat.ofDigits_digits 10 n)

/-! ## Numbers -/

/-- What may follow a value. -/
def Delim (rest : Bytes) : Prop := rest = [] ∨ ∃ c r, rest = c :: r ∧ (c = 44 ∨ c = 93 ∨ c = 125 ∨ c = 10)

theorem Delim.cases {rest : Bytes} (h : Delim rest) :
    rest = [] ∨ (∃ r, rest = 44 :: r) ∨ (∃ r, rest = 93 :: r) ∨ (∃ r, rest = 125 :: r) ∨ ∃ r, rest = 10 :: r := by
  rcases h with h | ⟨c, r, h, hc | hc | hc | hc⟩ <;> subst h
  · exact .inl rfl
  all_goals subst hc; simp

/-- The next byte is not a digit. -/
def NonDigit (rest : Bytes) : Prop := ∀ c, rest.head? = some c → isDigit c = false

theorem Delim.nonDigit {rest : Bytes} (h : Delim rest) : NonDigit rest := by
  intro c hc
  rcases h.cases with h | ⟨r, h⟩ | ⟨r, h⟩ | ⟨r, h⟩ | ⟨r, h⟩ <;> subst h <;> simp at hc <;> subst hc <;> rfl

theorem takeWhile_digits {ds rest : Bytes} (h : ∀ c ∈ ds, isDigit c = true) (hr : NonDigit rest) :
    (ds ++ rest).takeWhile isDigit = ds ∧ (ds ++ rest).dropWhile isDigit = rest := by
  induction ds with
  | nil =>
    cases rest with
    | nil => simp
    | cons c r => have := hr c rfl; simp [this]
  | cons c ds ih =>
    have hc := h c (List.mem_cons_self ..)
    obtain ⟨h1, h2⟩ := ih (fun x hx => h x (List.mem_cons_of_mem _ hx))
    simp [hc, h1, h2]

theorem parseIntPart_eq {ds rest : Bytes} (h : IntPart ds) (hr : NonDigit rest) : parseIntPart (ds ++ rest) = some (ds, rest) := by
  obtain ⟨h1, h2⟩ := takeWhile_digits h.digits hr
  unfold parseIntPart
  simp only [h1, h2]
  rw [if_neg]
  rintro (hc | ⟨hc, hl⟩)
  · exact h.ne hc
  · exact hl (h.head hc)

theorem parseFrac_delim {rest : Bytes} (h : ∀ c, rest.head? = some c → c ≠ 46) : parseFrac rest = some ([], rest) := by
  unfold parseFrac
  split
  · exact absurd rfl (h 46 rfl)
  · rfl

theorem parseExp_delim {rest : Bytes} (h : Delim rest) : parseExp rest = some (0, rest) := by
  rcases h.cases with h | ⟨r, h⟩ | ⟨r, h⟩ | ⟨r, h⟩ | ⟨r, h⟩ <;> subst h <;> rfl

theorem parseFrac_eq {ds rest : Bytes} (hne : ds ≠ []) (h : ∀ c ∈ ds, isDigit c = true) (hr : NonDigit rest) :
    parseFrac (46 :: ds ++ rest) = some (ds, rest) := by
  obtain ⟨h1, h2⟩ := takeWhile_digits h hr
  show (if (ds ++ rest).takeWhile isDigit = [] then none
    else some ((ds ++ rest).takeWhile isDigit, (ds ++ rest).dropWhile isDigit)) = _
  rw [h1, h2, if_neg hne]

theorem isDigit_ne {c : UInt8} (h : isDigit c = true) : c ≠ 45 ∧ c ≠ 43 ∧ c ≠ 46 ∧ c ≠ 101 := by
  refine ⟨?_, ?_, ?_, ?_⟩ <;> rintro rfl <;> exact absurd h (by decide)

theorem parseMinus_digits {ds rest : Bytes} (h : IntPart ds) : parseMinus (ds ++ rest) = (false, ds ++ rest) := by
  cases hds : ds with
  | nil => exact absurd hds h.ne
  | cons c r =>
    have := isDigit_ne (h.digits c (by rw [hds]; exact List.mem_cons_self ..))
    show parseMinus (c :: (r ++ rest)) = _
    unfold parseMinus
    split
    · rename_i heq; injection heq with h1 _; exact absurd h1 this.1
    · rfl

theorem parseNumber_int {ds rest : Bytes} (h : IntPart ds) (hr : Delim rest) : parseNumber (ds ++ rest) = some ((digitsVal ds : ℚ), rest) := by
  unfold parseNumber
  have hd : ∀ c, rest.head? = some c → c ≠ 46 := by
    intro c hc
    rcases hr.cases with h | ⟨r, h⟩ | ⟨r, h⟩ | ⟨r, h⟩ | ⟨r, h⟩ <;> subst h <;> simp at hc <;> subst hc <;> decide
  simp [parseMinus_digits h, parseIntPart_eq h hr.nonDigit, parseFrac_delim hd, parseExp_delim hr, digitsVal]

theorem parseNumber_frac {ds fs rest : Bytes} (h : IntPart ds) (hne : fs ≠ []) (hf : ∀ c ∈ fs, isDigit c = true) (hr : Delim rest) :
    parseNumber (ds ++ (46 :: fs ++ rest)) = some ((digitsVal ds : ℚ) + (digitsVal fs : ℚ) / (10 : ℚ) ^ fs.length, rest) := by
  unfold parseNumber
  have h46 : NonDigit (46 :: fs ++ rest) := by intro c hc; simp at hc; subst hc; rfl
  simp only [parseMinus_digits h, parseIntPart_eq h h46, parseFrac_eq hne hf hr.nonDigit, parseExp_delim hr, Option.bind_eq_bind,
    Option.bind_some, zpow_zero, mul_one, Bool.false_eq_true, if_false, Option.pure_def]

theorem parseExp_eq {es rest : Bytes} (neg : Bool) (h : IntPart es) (hr : Delim rest) :
    parseExp (101 :: (if neg then 45 else 43) :: (es ++ rest)) = some (if neg then -(digitsVal es : Int) else digitsVal es, rest) := by
  obtain ⟨h1, h2⟩ := takeWhile_digits h.digits hr.nonDigit
  cases neg
  · show parseExpDigits (43 :: (es ++ rest)) = _
    unfold parseExpDigits
    simp only [h1, h2, if_neg h.ne]
  · show parseExpDigits (45 :: (es ++ rest)) = _
    unfold parseExpDigits
    simp only [h1, h2, if_neg h.ne]

theorem parseNumber_exp {ds fs es rest : Bytes} (neg : Bool) (h : IntPart ds) (hf : ∀ c ∈ fs, isDigit c = true)
    (he : IntPart es) (hr : Delim rest) :
    parseNumber (ds ++ ((if fs = [] then [] else 46 :: fs) ++ (101 :: (if neg then 45 else 43) :: (es ++ rest)))) =
      some (((digitsVal ds : ℚ) + (digitsVal fs : ℚ) / (10 : ℚ) ^ fs.length) *
        (10 : ℚ) ^ (if neg then -(digitsVal es : Int) else digitsVal es), rest) := by
  have h101 : ∀ r, NonDigit (101 :: r) := by intro r c hc; simp at hc; subst hc; rfl
  unfold parseNumber
  by_cases hfs : fs = []
  · subst hfs
    have hd : ∀ (r : Bytes) (c : UInt8), (101 :: r).head? = some c → c ≠ 46 := by
      intro r c hc; simp at hc; subst hc; decide
    simp only [if_true, List.nil_append, parseMinus_digits h, parseIntPart_eq h (h101 _), parseFrac_delim (hd _),
      parseExp_eq neg he hr, Option.bind_eq_bind, Option.bind_some, Bool.false_eq_true, if_false, Option.pure_def]
  · have h46 : ∀ r, NonDigit ((46 :: fs) ++ r) := by intro r c hc; simp at hc; subst hc; rfl
    simp only [if_neg hfs, parseMinus_digits h, parseIntPart_eq h (h46 _), parseFrac_eq hfs hf (h101 _),
      parseExp_eq neg he hr, Option.bind_eq_bind, Option.bind_some, Bool.false_eq_true, if_false, Option.pure_def]

/-! ## Doubles -/

theorem ofDigits_dropWhile (ds : List Nat) :
    Nat.ofDigits 10 ds = 10 ^ (ds.length - (ds.dropWhile (· = 0)).length) * Nat.ofDigits 10 (ds.dropWhile (· = 0)) := by
  induction ds with
  | nil => rfl
  | cons d ds ih =>
    by_cases h : d = 0
    · subst h
      have h1 : ((0 :: ds).dropWhile (· = 0)) = ds.dropWhile (· = 0) := by simp
      have h2 : (ds.dropWhile (· = 0)).length ≤ ds.length := (List.dropWhile_sublist _).length_le
      rw [h1, Nat.ofDigits_cons, ih, List.length_cons, Nat.succ_sub h2, pow_succ]
      ring
    · have h1 : ((d :: ds).dropWhile (· = 0)) = d :: ds := by simp [h]
      rw [h1]; simp

/-- The digits of a number without the zeros at the end: an integer part, and their value. -/
theorem digits_spec {m : Nat} (hm : m ≠ 0) (e : Int) {ds' : Bytes}
    (hds' : ds' = ((Nat.digits 10 m).dropWhile (· = 0)).reverse.map (fun d => UInt8.ofNat (48 + d))) :
    IntPart ds' ∧ ds'.head? ≠ some 48 ∧
      (digitsVal ds' : ℚ) * pow10 (((Nat.digits 10 m).length : Int) + e - ds'.length) = (m : ℚ) * pow10 e := by
  subst hds'
  have hlt := digits_lt m
  have hne : Nat.digits 10 m ≠ [] := Nat.digits_ne_nil_iff_ne_zero.mpr hm
  have hlast := Nat.getLast_digit_ne_zero 10 hm
  have hval := Nat.ofDigits_digits 10 m
  set ds := Nat.digits 10 m with hds
  set s := ds.dropWhile (· = 0) with hs
  have hsub : s.Sublist ds := List.dropWhile_sublist _
  have hslt : ∀ d ∈ s, d < 10 := fun d h => hlt d (hsub.subset h)
  have hsne : s ≠ [] := by
    intro h
    have h0 := ofDigits_dropWhile ds
    rw [← hs, h] at h0
    simp at h0
    omega
  have hsl : s.getLast hsne ≠ 0 := by
    have : s.getLast hsne = ds.getLast hne := by
      have hsuf : s <:+ ds := List.dropWhile_suffix _
      exact hsuf.getLast hsne
    rw [this]; exact hlast
  have hh := head_reverse_digits hslt hsne hsl
  refine ⟨⟨by simpa using hsne, allDigits_map s hslt, fun h => absurd h hh⟩, hh, ?_⟩
  have hlen : (s.reverse.map digitCh).length = s.length := by simp
  have h0 := ofDigits_dropWhile ds
  rw [hval, ← hs] at h0
  have hle : s.length ≤ ds.length := hsub.length_le
  have key : (digitsVal (s.reverse.map digitCh) : ℚ) * pow10 ((ds.length : Int) + e - s.length) = (m : ℚ) * pow10 e := by
    rw [digitsVal_digits s hslt]
    conv_rhs => rw [h0]
    rw [show (ds.length : Int) + e - s.length = ((ds.length - s.length : Nat) : Int) + e by omega, pow10_add, pow10_eq, zpow_natCast]
    push_cast; ring
  rw [hlen, key]

/-- The digits of a positive number: an integer part, and their value. -/
theorem shortest_spec {f : ℚ} (hf : 0 < f) (hd : rnd f = f) :
    IntPart (shortest f).1 ∧ (shortest f).1.head? ≠ some 48 ∧
      rnd ((digitsVal (shortest f).1 : ℚ) * pow10 ((shortest f).2 - (shortest f).1.length)) = f := by
  have hr := shortestFrom_rnd hf hd
  unfold shortest
  generalize shortestFrom f (dexp f) 17 1 = p at hr
  obtain ⟨m, e⟩ := p
  simp only at hr ⊢
  have hm : m ≠ 0 := by
    rintro rfl
    simp [rnd_zero] at hr
    linarith
  obtain ⟨h1, h2, h3⟩ := digits_spec hm e rfl
  exact ⟨h1, h2, by rw [h3]; exact hr⟩

/-- What `%f` writes denotes the digits at their place. -/
theorem parse_fmtF {ds rest : Bytes} {dp : Int} (h : IntPart ds) (h0 : ds.head? ≠ some 48) (hr : Delim rest) :
    parseNumber (fmtF ds dp ++ rest) = some ((digitsVal ds : ℚ) * pow10 (dp - ds.length), rest) := by
  have h10 : (10 : ℚ) ≠ 0 := by norm_num
  unfold fmtF
  split
  · rename_i hdp
    have hz : IntPart [48] := ⟨by simp, by decide, fun _ => rfl⟩
    have hall : ∀ c ∈ List.replicate dp.natAbs 48 ++ ds, isDigit c = true := by
      intro c hc
      rcases List.mem_append.mp hc with hc | hc
      · rw [List.eq_of_mem_replicate hc]; rfl
      · exact h.digits c hc
    have := parseNumber_frac hz (by simp [h.ne] : List.replicate dp.natAbs 48 ++ ds ≠ []) hall hr
    rw [show [48, 46] ++ List.replicate dp.natAbs 48 ++ ds ++ rest = [48] ++ (46 :: (List.replicate dp.natAbs 48 ++ ds) ++ rest) by simp,
      this]
    congr 2
    rw [digitsVal_append, digitsVal_replicate, List.length_append, List.length_replicate]
    rw [show digitsVal [48] = 0 by rfl, pow10_eq]
    rw [show dp - (ds.length : Int) = -((dp.natAbs + ds.length : Nat) : Int) by omega, zpow_neg, zpow_natCast]
    push_cast
    field_simp
    ring
  · rename_i hdp
    split
    · rename_i hlt
      have hpos : 0 < dp.natAbs := by omega
      have hi : IntPart (ds.take dp.natAbs) := by
        refine ⟨?_, fun c hc => h.digits c (List.mem_of_mem_take hc), fun hc => absurd hc ?_⟩
        · intro hc
          rw [List.take_eq_nil_iff] at hc
          rcases hc with hc | hc
          · omega
          · exact h.ne hc
        · rw [List.head?_take, if_neg (by omega)]; exact h0
      have hfne : ds.drop dp.natAbs ≠ [] := by
        intro hc; rw [List.drop_eq_nil_iff] at hc; omega
      have := parseNumber_frac hi hfne (fun c hc => h.digits c (List.mem_of_mem_drop hc)) hr
      rw [show ds.take dp.natAbs ++ [46] ++ ds.drop dp.natAbs ++ rest = ds.take dp.natAbs ++ (46 :: ds.drop dp.natAbs ++ rest) by simp,
        this]
      congr 2
      conv_rhs => rw [← List.take_append_drop dp.natAbs ds, digitsVal_append]
      rw [List.take_append_drop, List.length_drop, pow10_eq]
      rw [show dp - (ds.length : Int) = -((ds.length - dp.natAbs : Nat) : Int) by omega, zpow_neg, zpow_natCast]
      push_cast
      field_simp
    · rename_i hge
      have hi : IntPart (ds ++ List.replicate (dp.natAbs - ds.length) 48) := by
        refine ⟨by simp [h.ne], ?_, fun hc => absurd hc ?_⟩
        · intro c hc
          rcases List.mem_append.mp hc with hc | hc
          · exact h.digits c hc
          · rw [List.eq_of_mem_replicate hc]; rfl
        · cases hds : ds with
          | nil => exact absurd hds h.ne
          | cons c r => rw [hds] at h0; simpa using h0
      rw [parseNumber_int hi hr, digitsVal_append, digitsVal_replicate, List.length_replicate, pow10_eq]
      rw [show dp - (ds.length : Int) = ((dp.natAbs - ds.length : Nat) : Int) by omega, zpow_natCast]
      congr 2
      push_cast; ring

/-- What `%e` writes denotes the digits at their place. -/
theorem parse_fmtE {ds rest : Bytes} {dp : Int} (h : IntPart ds) (h0 : ds.head? ≠ some 48) (hr : Delim rest) :
    parseNumber (fmtE ds dp ++ rest) = some ((digitsVal ds : ℚ) * pow10 (dp - ds.length), rest) := by
  have h10 : (10 : ℚ) ≠ 0 := by norm_num
  have hlen : 1 ≤ ds.length := by
    rcases Nat.eq_zero_or_pos ds.length with hc | hc
    · exact absurd (List.length_eq_zero_iff.mp hc) h.ne
    · exact hc
  have hi : IntPart (ds.take 1) := by
    refine ⟨?_, fun c hc => h.digits c (List.mem_of_mem_take hc), fun hc => absurd hc ?_⟩
    · intro hc
      rw [List.take_eq_nil_iff] at hc
      rcases hc with hc | hc
      · omega
      · exact h.ne hc
    · rw [List.head?_take, if_neg (by omega)]; exact h0
  have := parseNumber_exp (decide (dp - 1 < 0)) hi (fun c hc => h.digits c (List.mem_of_mem_drop hc) : ∀ c ∈ ds.drop 1, isDigit c = true)
    (decNat_int (dp - 1).natAbs) hr
  have ht : fmtE ds dp ++ rest = ds.take 1 ++ ((if ds.drop 1 = [] then [] else 46 :: ds.drop 1) ++
      (101 :: (if decide (dp - 1 < 0) = true then 45 else 43) :: (decNat (dp - 1).natAbs ++ rest))) := by
    unfold fmtE
    have he : (ds.length ≤ 1) ↔ ds.drop 1 = [] := by rw [List.drop_eq_nil_iff]
    simp only [he, decide_eq_true_eq]
    split <;> split <;> simp
  rw [ht, this]
  congr 2
  rw [decNat_val]
  have hx : (if decide (dp - 1 < 0) = true then -((dp - 1).natAbs : Int) else ((dp - 1).natAbs : Int)) = dp - 1 := by
    by_cases hc : dp - 1 < 0
    · rw [decide_eq_true hc, if_pos rfl]; omega
    · rw [decide_eq_false hc, if_neg (by simp)]; omega
  rw [hx]
  conv_rhs => rw [← List.take_append_drop 1 ds, digitsVal_append]
  rw [List.take_append_drop, List.length_drop, pow10_eq]
  rw [show dp - (ds.length : Int) = (dp - 1) - ((ds.length - 1 : Nat) : Int) by omega, zpow_sub₀ h10 (dp - 1) _, zpow_natCast]
  push_cast
  field_simp

theorem parse_jsonPos {f : ℚ} (hf : 0 < f) (hd : rnd f = f) :
    ∃ q, (∀ rest, Delim rest → parseNumber (jsonPos f ++ rest) = some (q, rest)) ∧ rnd q = f ∧ 0 < q := by
  obtain ⟨h1, h2, h3⟩ := shortest_spec hf hd
  refine ⟨_, fun rest hr => ?_, h3, ?_⟩
  · unfold jsonPos
    simp only
    split
    · exact parse_fmtE h1 h2 hr
    · exact parse_fmtF h1 h2 hr
  · refine lt_of_le_of_ne (mul_nonneg (by positivity) (pow10_pos _).le) ?_
    intro hc; rw [← hc, rnd_zero] at h3; linarith

theorem fmtF_start {ds : Bytes} {dp : Int} (h : IntPart ds) : ∃ c r, fmtF ds dp = c :: r ∧ isDigit c = true := by
  cases hds : ds with
  | nil => exact absurd hds h.ne
  | cons c r =>
    have hc := h.digits c (by rw [hds]; exact List.mem_cons_self ..)
    unfold fmtF
    split
    · exact ⟨48, _, rfl, rfl⟩
    · split
      · obtain ⟨k, hk⟩ : ∃ k, dp.natAbs = k + 1 := ⟨dp.natAbs - 1, by omega⟩
        rw [hk]
        exact ⟨c, _, rfl, hc⟩
      · exact ⟨c, _, rfl, hc⟩

theorem fmtE_start {ds : Bytes} {dp : Int} (h : IntPart ds) : ∃ c r, fmtE ds dp = c :: r ∧ isDigit c = true := by
  cases hds : ds with
  | nil => exact absurd hds h.ne
  | cons c r => exact ⟨c, _, rfl, h.digits c (by rw [hds]; exact List.mem_cons_self ..)⟩

theorem jsonPos_start {f : ℚ} (hf : 0 < f) (hd : rnd f = f) : ∃ c r, jsonPos f = c :: r ∧ isDigit c = true := by
  obtain ⟨h1, _, _⟩ := shortest_spec hf hd
  unfold jsonPos
  simp only
  split
  · exact fmtE_start h1
  · exact fmtF_start h1

theorem parseNumber_minus {t : Bytes} {q : ℚ} {rest : Bytes} {c : UInt8} {r : Bytes} (ht : t = c :: r) (hc : isDigit c = true)
    (h : parseNumber t = some (q, rest)) : parseNumber (45 :: t) = some (-q, rest) := by
  have hm : parseMinus t = (false, t) := by
    subst ht
    unfold parseMinus
    split
    · rename_i heq; injection heq with h1 _; exact absurd h1 (isDigit_ne hc).1
    · rfl
  unfold parseNumber at h ⊢
  rw [hm] at h
  simp only [parseMinus, Option.bind_eq_bind, Option.pure_def] at h ⊢
  cases h1 : parseIntPart t with
  | none => rw [h1] at h; simp at h
  | some p1 =>
    rw [h1] at h
    simp only [Option.bind_some] at h ⊢
    cases h2 : parseFrac p1.2 with
    | none => rw [h2] at h; simp at h
    | some p2 =>
      rw [h2] at h
      simp only [Option.bind_some] at h ⊢
      cases h3 : parseExp p2.2 with
      | none => rw [h3] at h; simp at h
      | some p3 =>
        rw [h3] at h
        simp only [Option.bind_some, Bool.false_eq_true, if_false, if_true, Option.some.injEq, Prod.mk.injEq] at h ⊢
        exact ⟨by rw [h.1], h.2⟩

/-- The text of a double starts as a number and reads back as the double. -/
theorem parse_jsonFloat {f : ℚ} (hd : rnd f = f) :
    (∃ c r, jsonFloat f = c :: r ∧ (c = 45 ∨ isDigit c = true)) ∧
      ∃ q, (∀ rest, Delim rest → parseNumber (jsonFloat f ++ rest) = some (q, rest)) ∧ rnd q = f := by
  unfold jsonFloat
  split
  · rename_i h0; subst h0
    refine ⟨⟨48, [], rfl, .inr rfl⟩, 0, fun rest hr => ?_, rnd_zero⟩
    have := parseNumber_int (ds := [48]) ⟨by simp, by decide, fun _ => rfl⟩ hr
    rw [this]; rfl
  · rename_i h0
    split
    · rename_i hlt
      have hp : 0 < -f := by linarith
      have hd' : rnd (-f) = -f := by
        have := rnd_neg_eq (-f) hp
        rw [neg_neg, hd] at this; linarith
      obtain ⟨q, h1, h2, h3⟩ := parse_jsonPos hp hd'
      obtain ⟨c, r, hs, hc⟩ := jsonPos_start hp hd'
      refine ⟨⟨45, _, rfl, .inl rfl⟩, -q, fun rest hr => ?_, ?_⟩
      · exact parseNumber_minus (c := c) (r := r ++ rest) (by rw [hs]; rfl) hc (h1 rest hr)
      · rw [rnd_neg_eq q h3, h2, neg_neg]
    · rename_i hge
      have hp : 0 < f := lt_of_le_of_ne (not_lt.mp hge) (Ne.symm h0)
      obtain ⟨q, h1, h2, _⟩ := parse_jsonPos hp hd
      obtain ⟨c, r, hs, hc⟩ := jsonPos_start hp hd
      exact ⟨⟨c, r, hs, .inr hc⟩, q, h1, h2⟩

end Egts
