import Verif.Proofs.MarshalFloat
import Verif.Proofs.Utf8
import Verif.Proofs.JsonNav

/-! # Reading back what `json.Marshal` writes: strings, byte strings, dates -/

namespace Egts
open Json Utf8

/-! ## Strings -/

/-- A byte that stands for itself in a JSON string. -/
def PlainCh (c : UInt8) : Prop := ¬ c < 32 ∧ c ≠ 34 ∧ c ≠ 92

theorem parseChars_cons {c : UInt8} (h : PlainCh c) (r : Bytes) :
    parseChars (c :: r) = (parseChars r).map (fun p => (c :: p.1, p.2)) := by
  have : parseChars (c :: r) = if c < 32 ∨ c = 92 then none else
      match parseChars r with
      | some (s, r) => some (c :: s, r)
      | none => none := by
    conv_lhs => unfold parseChars
    split
    · rename_i heq; cases heq
    · rename_i heq; injection heq with h' _; exact absurd h' h.2.1
    · rename_i heq; injection heq with h' _; exact absurd h' h.2.2
    · rename_i heq; injection heq with h' _; exact absurd h' h.2.2
    · rename_i heq; injection heq with h1 h'; subst h1; subst h'; rfl
  rw [this, if_neg (by rintro (h' | h'); exacts [absurd h' h.1, h.2.2 h'])]
  cases parseChars r <;> rfl

theorem parseChars_plain {s : Bytes} (h : ∀ c ∈ s, PlainCh c) (r : Bytes) :
    parseChars (s ++ r) = (parseChars r).map (fun p => (s ++ p.1, p.2)) := by
  induction s with
  | nil =>
    show parseChars r = _
    cases parseChars r <;> rfl
  | cons c s ih =>
    rw [List.cons_append, parseChars_cons (h c (List.mem_cons_self ..)), ih (fun c hc => h c (List.mem_cons_of_mem _ hc))]
    cases parseChars r <;> rfl

theorem reads_plain {s : Bytes} (h : ∀ c ∈ s, PlainCh c) : Reads ([34] ++ s ++ [34]) (.str s) 1 := by
  refine ⟨⟨34, s ++ [34], rfl, rfl, by decide⟩, fun n hn rest _ => ?_⟩
  obtain ⟨k, rfl⟩ : ∃ k, n = k + 1 := ⟨n - 1, by omega⟩
  rw [show [34] ++ s ++ [34] ++ rest = 34 :: (s ++ 34 :: rest) by simp]
  show (parseChars (s ++ 34 :: rest)).map (fun p => ((Value.str p.1, p.2) : Value × Bytes)) = _
  rw [parseChars_plain h]
  show (Option.map _ (Option.map _ (some ([], rest)))) = _
  simp

/-- A string with the bytes that are no UTF-8 replaced; the first argument bounds the number of steps. -/
def repairN : Nat → Bytes → Bytes
  | 0, _ => []
  | _ + 1, [] => []
  | k + 1, c :: r =>
    match runeAt (c :: r) with
    | none => enc 0xFFFD ++ repairN k r
    | some (n, size) => enc n ++ repairN k ((c :: r).drop size)

/-- A string with the bytes that are no UTF-8 replaced. -/
def repair (s : Bytes) : Bytes := repairN s.length s

theorem runeAt_ascii {c : UInt8} (h : c < 0x80) (r : Bytes) : runeAt (c :: r) = some (c.toNat, 1) := by
  have : c.toNat < 128 := by simpa [UInt8.lt_iff_toNat_lt] using h
  simp [runeAt, this]

theorem enc_ascii {c : UInt8} (h : c < 0x80) : enc c.toNat = [c] := by
  have : c.toNat < 128 := by simpa [UInt8.lt_iff_toNat_lt] using h
  simp [enc, this]

theorem enc_high {n : Nat} (hs : Scalar n) (h : 0x80 ≤ n) : ∀ c ∈ enc n, ¬ c < 0x80 := by
  intro c hc
  unfold Scalar at hs
  unfold enc at hc
  rw [UInt8.lt_iff_toNat_lt]
  repeat' split at hc
  · omega
  all_goals
    simp only [List.mem_cons, List.not_mem_nil, or_false] at hc
    rcases hc with rfl | rfl | rfl | rfl <;> simp only [UInt8.toNat_ofNat'] <;> simp <;> omega

theorem plain_high {c : UInt8} (h : ¬ c < 0x80) : PlainCh c := by
  have h' : 128 ≤ c.toNat := by rw [UInt8.lt_iff_toNat_lt] at h; simpa using h
  refine ⟨?_, ?_, ?_⟩
  · rw [UInt8.lt_iff_toNat_lt]; simp; omega
  · rintro rfl; exact absurd h' (by decide)
  · rintro rfl; exact absurd h' (by decide)

theorem parseChars_unicode {a b c d : UInt8} {u : Bytes} (h : unicodeEscape a b c d = some u) (r : Bytes) :
    parseChars (92 :: 117 :: a :: b :: c :: d :: r) = (parseChars r).map (fun p => (u ++ p.1, p.2)) := by
  show (match unicodeEscape a b c d, parseChars r with
      | some u, some (s, r) => some (u ++ s, r)
      | _, _ => none) = _
  rw [h]
  cases parseChars r <;> rfl

theorem parseChars_escapeN : ∀ (k : Nat) (s : Bytes), s.length ≤ k → ∀ r, parseChars (escapeN k s ++ 34 :: r) = some (repairN k s, r) := by
  intro k
  induction k with
  | zero => intro s hs r; rfl
  | succ k ih =>
    intro s hs r
    cases s with
    | nil => rfl
    | cons c s =>
      simp only [List.length_cons] at hs
      unfold escapeN repairN
      split
      · rename_i hc
        rw [runeAt_ascii hc]
        simp only [List.drop_succ_cons, List.drop_zero]
        rw [List.append_assoc, parseChars_jsonChar hc, ih s (by omega), enc_ascii hc]
        rfl
      · rename_i hc
        cases hr : runeAt (c :: s) with
        | none =>
          simp only
          rw [List.append_assoc]
          have : unicodeEscape 102 102 102 100 = some (enc 0xFFFD) := by decide
          refine (parseChars_unicode this (escapeN k s ++ 34 :: r)).trans ?_
          rw [ih s (by omega)]
          rfl
        | some p =>
          obtain ⟨n, size⟩ := p
          simp only
          obtain ⟨h1, h2, h3⟩ := runeAt_sound hr
          have hpos : 0 < size := by rw [h3]; exact List.length_pos_iff.mpr (enc_ne n)
          have hd : ((c :: s).drop size).length ≤ k := by simp; omega
          have hn : 0x80 ≤ n := by
            by_contra hlt
            have : enc n = [UInt8.ofNat n] := by simp [enc, show n < 128 by omega]
            rw [this] at h2 h3
            rw [h3] at h2
            simp at h2
            apply hc
            rw [h2, UInt8.lt_iff_toNat_lt]
            simp
            omega
          rw [List.append_assoc]
          split
          · rename_i h20
            have : unicodeEscape 50 48 50 (hexDigit (UInt8.ofNat (n % 16))) = some (enc n) := by
              rcases h20 with rfl | rfl <;> decide
            rw [show go!"\\u202" ++ [hexDigit (UInt8.ofNat (n % 16))] ++ (escapeN k ((c :: s).drop size) ++ 34 :: r) =
              92 :: 117 :: 50 :: 48 :: 50 :: hexDigit (UInt8.ofNat (n % 16)) :: (escapeN k ((c :: s).drop size) ++ 34 :: r) from rfl]
            rw [parseChars_unicode this, ih _ hd]
            rfl
          · rw [h2, parseChars_plain (fun c hc => plain_high (enc_high h1 hn c hc)), ih _ hd]
            rfl

theorem reads_marshalString (s : Bytes) : Reads (marshalString s) (.str (repair s)) 1 := by
  refine ⟨⟨34, escapeN s.length s ++ [34], rfl, rfl, by decide⟩, fun n hn rest _ => ?_⟩
  obtain ⟨k, rfl⟩ : ∃ k, n = k + 1 := ⟨n - 1, by omega⟩
  rw [show marshalString s ++ rest = 34 :: (escapeN s.length s ++ 34 :: rest) by simp [marshalString]]
  show (parseChars (escapeN s.length s ++ 34 :: rest)).map (fun p => ((Value.str p.1, p.2) : Value × Bytes)) = _
  rw [parseChars_escapeN _ _ (le_refl _)]
  rfl

theorem repairN_repaired : ∀ (k : Nat) (s : Bytes), s.length ≤ k → Repaired s (repairN k s) := by
  intro k
  induction k with
  | zero =>
    intro s hs
    cases s with
    | nil => exact .nil
    | cons c s => simp at hs
  | succ k ih =>
    intro s hs
    cases s with
    | nil => exact .nil
    | cons c s =>
      simp only [List.length_cons] at hs
      unfold repairN
      cases hr : runeAt (c :: s) with
      | none =>
        refine .bad (fun n hn hp => ?_) (ih s (by omega))
        obtain ⟨j, hj⟩ := runeAt_some_iff.mpr ⟨hn, hp⟩
        rw [hr] at hj; cases hj
      | some p =>
        obtain ⟨n, size⟩ := p
        obtain ⟨h1, h2, h3⟩ := runeAt_sound hr
        have hpos : 0 < size := by rw [h3]; exact List.length_pos_iff.mpr (enc_ne n)
        have hd : ((c :: s).drop size).length ≤ k := by simp; omega
        have := Repaired.char h1 (ih _ hd)
        rw [← h2, List.take_append_drop] at this
        simp only
        rw [← h2]
        exact this

theorem repair_repaired (s : Bytes) : Repaired s (repair s) := repairN_repaired _ _ (le_refl _)

theorem enc_cancel {n m : Nat} {s t : Bytes} (hn : Scalar n) (hm : Scalar m) (h : enc n ++ s = enc m ++ t) : n = m ∧ s = t := by
  have h1 := runeAt_enc hn s
  rw [h, runeAt_enc hm t] at h1
  simp only [Option.some.injEq, Prod.mk.injEq] at h1
  obtain ⟨rfl, _⟩ := h1
  exact ⟨rfl, List.append_cancel_left h⟩

/-- Well-formed strings are left alone. -/
theorem repaired_wellFormed {s t : Bytes} (h : Repaired s t) (hw : WellFormed s) : t = s := by
  obtain ⟨ns, hns, hs⟩ := hw
  induction h generalizing ns with
  | nil => rfl
  | @char n s t hn _ ih =>
    cases ns with
    | nil =>
      simp only [List.flatMap_nil, List.append_eq_nil_iff] at hs
      exact absurd hs.1 (enc_ne n)
    | cons m ns =>
      simp only [List.flatMap_cons] at hs
      obtain ⟨rfl, h2⟩ := enc_cancel hn (hns m (List.mem_cons_self ..)) hs
      rw [ih ns (fun x hx => hns x (List.mem_cons_of_mem _ hx)) h2]
  | @bad c s t hb _ ih =>
    cases ns with
    | nil => cases hs
    | cons m ns =>
      simp only [List.flatMap_cons] at hs
      exact absurd (hs ▸ List.prefix_append _ _) (hb m (hns m (List.mem_cons_self ..)))

theorem wellFormed_nil : WellFormed [] := ⟨[], by simp, rfl⟩

theorem wellFormed_append {s t : Bytes} (h1 : WellFormed s) (h2 : WellFormed t) : WellFormed (s ++ t) := by
  obtain ⟨a, ha, rfl⟩ := h1
  obtain ⟨b, hb, rfl⟩ := h2
  exact ⟨a ++ b, fun n hn => (List.mem_append.mp hn).elim (ha n) (hb n), by rw [List.flatMap_append]⟩

theorem wellFormed_enc {n : Nat} (h : Scalar n) : WellFormed (enc n) := ⟨[n], by simpa using h, by simp⟩

theorem wellFormed_ascii {s : Bytes} (h : IsAscii s) : WellFormed s := by
  induction s with
  | nil => exact wellFormed_nil
  | cons c s ih =>
    have hc := h c (List.mem_cons_self ..)
    have h128 : c.toNat < 128 := by simpa [UInt8.lt_iff_toNat_lt] using hc
    have h1 : WellFormed (enc c.toNat) := wellFormed_enc (.inl (by omega))
    rw [enc_ascii hc] at h1
    exact wellFormed_append h1 (ih (fun c hc => h c (List.mem_cons_of_mem _ hc)))

theorem jsonChar_ascii {c : UInt8} (h : c < 128) : IsAscii (jsonChar c) := by
  have key : ∀ n : Fin 128, ∀ x ∈ jsonChar (UInt8.ofNat n), x < 128 := by decide +kernel
  have h128 : c.toNat < 128 := by simpa [UInt8.lt_iff_toNat_lt] using h
  have := key ⟨c.toNat, h128⟩
  simp only [UInt8.ofNat_toNat] at this
  exact this

theorem escapeN_wellFormed : ∀ (k : Nat) (s : Bytes), WellFormed (escapeN k s) := by
  intro k
  induction k with
  | zero => intro s; exact wellFormed_nil
  | succ k ih =>
    intro s
    cases s with
    | nil => exact wellFormed_nil
    | cons c s =>
      unfold escapeN
      split
      · rename_i hc
        exact wellFormed_append (wellFormed_ascii (jsonChar_ascii hc)) (ih s)
      · split
        · exact wellFormed_append (wellFormed_ascii (by unfold IsAscii; decide)) (ih s)
        · rename_i n size hr
          obtain ⟨h1, h2, _⟩ := runeAt_sound hr
          refine wellFormed_append ?_ (ih _)
          split
          · rename_i h20
            refine wellFormed_ascii ?_
            unfold IsAscii
            rcases h20 with rfl | rfl <;> decide
          · rw [h2]; exact wellFormed_enc h1

theorem marshalString_wellFormed (s : Bytes) : WellFormed (marshalString s) :=
  wellFormed_append (wellFormed_append (wellFormed_ascii (by unfold IsAscii; decide)) (escapeN_wellFormed _ _))
    (wellFormed_ascii (by unfold IsAscii; decide))

/-! ## Byte strings -/

theorem b64_val {n : Nat} (h : n < 64) : base64Val (b64Char n) = some n := by
  have key : ∀ n : Fin 64, base64Val (b64Char n) = some n.1 := by decide +kernel
  exact key ⟨n, h⟩

theorem b64_plain (n : Nat) : PlainCh (b64Char n) ∧ b64Char n < 128 := by
  by_cases h : n < 64
  · have key : ∀ n : Fin 64, (¬ b64Char n < 32 ∧ b64Char n ≠ 34 ∧ b64Char n ≠ 92) ∧ b64Char n < 128 := by decide +kernel
    exact key ⟨n, h⟩
  · have : b64Char n = 47 := by
      unfold b64Char
      rw [if_neg (by omega), if_neg (by omega), if_neg (by omega), if_neg (by omega)]
    rw [this]
    unfold PlainCh
    decide

theorem base64_plain : ∀ (b : Bytes), ∀ c ∈ base64 b, PlainCh c ∧ c < 128
  | x :: y :: z :: r, c, hc => by
    simp only [base64, List.cons_append, List.nil_append, List.mem_cons] at hc
    rcases hc with rfl | rfl | rfl | rfl | hc
    · exact b64_plain _
    · exact b64_plain _
    · exact b64_plain _
    · exact b64_plain _
    · exact base64_plain r c hc
  | [x, y], c, hc => by
    simp only [base64, List.mem_cons, List.not_mem_nil, or_false] at hc
    rcases hc with rfl | rfl | rfl | rfl
    · exact b64_plain _
    · exact b64_plain _
    · exact b64_plain _
    · unfold PlainCh; decide
  | [x], c, hc => by
    simp only [base64, List.mem_cons, List.not_mem_nil, or_false] at hc
    rcases hc with rfl | rfl | rfl | rfl
    · exact b64_plain _
    · exact b64_plain _
    · unfold PlainCh; decide
    · unfold PlainCh; decide
  | [], c, hc => by cases hc

theorem base64Val_pad : base64Val 61 = none := by decide

theorem readBase64_group {a b c d : UInt8} {na nb nc nd : Nat} (ha : base64Val a = some na) (hb : base64Val b = some nb)
    (hc : base64Val c = some nc) (hd : base64Val d = some nd) (r : Bytes) :
    readBase64 (a :: b :: c :: d :: r) =
      (readBase64 r).map fun r => UInt8.ofNat (na * 4 + nb / 16) :: UInt8.ofNat (nb % 16 * 16 + nc / 4) :: UInt8.ofNat (nc % 4 * 64 + nd) :: r := by
  have hd' : d ≠ 61 := by rintro rfl; rw [base64Val_pad] at hd; cases hd
  conv_lhs => unfold readBase64
  split
  · rename_i heq; cases heq
  · rename_i heq
    simp only [List.cons.injEq] at heq
    exact absurd heq.2.2.2.1 hd'
  · rename_i heq
    simp only [List.cons.injEq] at heq
    exact absurd heq.2.2.2.1 hd'
  · rename_i heq
    simp only [List.cons.injEq] at heq
    obtain ⟨rfl, rfl, rfl, rfl, rfl⟩ := heq
    rw [ha, hb, hc, hd]
    cases readBase64 r <;> rfl
  · rename_i h; exact absurd rfl (h _ _ _ _ _)

theorem readBase64_base64 : ∀ b : Bytes, readBase64 (base64 b) = some b
  | x :: y :: z :: r => by
    have hx : x.toNat < 256 := x.toNat_lt
    have hy : y.toNat < 256 := y.toNat_lt
    have hz : z.toNat < 256 := z.toNat_lt
    simp only [base64, List.cons_append, List.nil_append]
    rw [readBase64_group (b64_val (by omega)) (b64_val (by omega)) (b64_val (by omega)) (b64_val (by omega)), readBase64_base64 r,
      Option.map_some]
    congr 2
    · rw [show x.toNat / 4 * 4 + (x.toNat % 4 * 16 + y.toNat / 16) / 16 = x.toNat by omega]; simp
    · congr 1
      · rw [show (x.toNat % 4 * 16 + y.toNat / 16) % 16 * 16 + (y.toNat % 16 * 4 + z.toNat / 64) / 4 = y.toNat by omega]; simp
      · congr 1
        rw [show (y.toNat % 16 * 4 + z.toNat / 64) % 4 * 64 + z.toNat % 64 = z.toNat by omega]; simp
  | [x, y] => by
    have hx : x.toNat < 256 := x.toNat_lt
    have hy : y.toNat < 256 := y.toNat_lt
    have hc : b64Char (y.toNat % 16 * 4) ≠ 61 := by
      intro h
      have := b64_val (n := y.toNat % 16 * 4) (by omega)
      rw [h, base64Val_pad] at this; cases this
    simp only [base64]
    conv_lhs => unfold readBase64
    split
    · rename_i heq; cases heq
    · rename_i heq
      simp only [List.cons.injEq] at heq
      exact absurd heq.2.2.1 hc
    · rename_i heq
      simp only [List.cons.injEq, and_true] at heq
      obtain ⟨rfl, rfl, rfl⟩ := heq
      rw [b64_val (by omega), b64_val (by omega), b64_val (by omega)]
      simp only [Option.pure_def, Option.bind_eq_bind, Option.bind_some]
      rw [show x.toNat / 4 * 4 + (x.toNat % 4 * 16 + y.toNat / 16) / 16 = x.toNat by omega,
        show (x.toNat % 4 * 16 + y.toNat / 16) % 16 * 16 + y.toNat % 16 * 4 / 4 = y.toNat by omega]
      simp
    · rename_i h1 h2 heq
      simp only [List.cons.injEq] at heq
      obtain ⟨rfl, rfl, rfl, rfl, rfl⟩ := heq
      exact (h2 rfl rfl).elim
    · rename_i h; exact absurd rfl (h _ _ _ _ _)
  | [x] => by
    have hx : x.toNat < 256 := x.toNat_lt
    simp only [base64]
    show (do
      let a ← base64Val (b64Char (x.toNat / 4))
      let b ← base64Val (b64Char (x.toNat % 4 * 16))
      pure [UInt8.ofNat (a * 4 + b / 16)]) = _
    rw [b64_val (by omega), b64_val (by omega)]
    simp only [Option.pure_def, Option.bind_eq_bind, Option.bind_some]
    rw [show x.toNat / 4 * 4 + (x.toNat % 4 * 16) / 16 = x.toNat by omega]
    simp
  | [] => rfl

theorem reads_base64 (b : Bytes) : Reads ([34] ++ base64 b ++ [34]) (.str (base64 b)) 1 :=
  reads_plain (fun c hc => (base64_plain b c hc).1)

/-! ## Dates -/

/-- `civil`, for the part of the year: month and day of the month from the day of the year. -/
def monthDay (leap : Bool) (yday : Nat) : Nat × Nat :=
  if leap ∧ yday = 59 then (2, 29)
  else
    let day := if leap ∧ 59 < yday then yday - 1 else yday
    let month := day / 31
    if daysBefore (month + 1) ≤ day then (month + 2, day - daysBefore (month + 1) + 1)
    else (month + 1, day - daysBefore month + 1)

/-- `monthLengths`, given whether the year is a leap year. -/
def monthLens (leap : Bool) : List Nat := [31, if leap then 29 else 28, 31, 30, 31, 30, 31, 31, 30, 31, 30, 31]

theorem monthLengths_eq (y : Int) : monthLengths y = monthLens (isLeapYear y) := by
  unfold monthLengths monthLens isLeapYear
  simp

set_option maxRecDepth 20000 in
theorem monthDay_spec {leap : Bool} {yday : Nat} (h : yday < if leap then 366 else 365) :
    1 ≤ (monthDay leap yday).1 ∧ (monthDay leap yday).1 ≤ 12 ∧ 1 ≤ (monthDay leap yday).2 ∧
      (monthDay leap yday).2 ≤ (monthLens leap).getD ((monthDay leap yday).1 - 1) 0 ∧
      ((monthLens leap).take ((monthDay leap yday).1 - 1)).sum + (monthDay leap yday).2 - 1 = yday := by
  have key : ∀ leap : Bool, ∀ yday : Fin 366, yday.1 < (if leap then 366 else 365) →
      1 ≤ (monthDay leap yday).1 ∧ (monthDay leap yday).1 ≤ 12 ∧ 1 ≤ (monthDay leap yday).2 ∧
      (monthDay leap yday).2 ≤ (monthLens leap).getD ((monthDay leap yday).1 - 1) 0 ∧
      ((monthLens leap).take ((monthDay leap yday).1 - 1)).sum + (monthDay leap yday).2 - 1 = yday := by decide +kernel
  exact key leap ⟨yday, by split at h <;> omega⟩ h

theorem civil_eq (days : Int) :
    ∃ (y : Int) (yday : Nat), civil days = (y, monthDay (isLeapYear y) yday) ∧ yday < (if isLeapYear y then 366 else 365) ∧
      days = 365 * (y - 1) + (y - 1) / 4 - (y - 1) / 100 + (y - 1) / 400 + yday := by
  unfold civil
  have hd : (days % 146097).toNat < 146097 := by omega
  have hdays : days = 146097 * (days / 146097) + ((days % 146097).toNat : Int) := by omega
  generalize hq : days / 146097 = n400 at *
  generalize hr : (days % 146097).toNat = d at *
  clear hq hr
  simp only
  have h1 : d / 36524 - d / 36524 / 4 ≤ 3 := by omega
  have h1' : d - 36524 * (d / 36524 - d / 36524 / 4) < 36524 ∨
    (d / 36524 - d / 36524 / 4 = 3 ∧ d - 36524 * (d / 36524 - d / 36524 / 4) = 36524) := by omega
  have hdd : d = 36524 * (d / 36524 - d / 36524 / 4) + (d - 36524 * (d / 36524 - d / 36524 / 4)) := by omega
  generalize d / 36524 - d / 36524 / 4 = n100 at *
  generalize d - 36524 * n100 = d1 at *
  have h2 : d1 / 1461 ≤ 24 := by omega
  have hd1 : d1 = 1461 * (d1 / 1461) + (d1 - 1461 * (d1 / 1461)) := by omega
  have h2' : d1 - 1461 * (d1 / 1461) < 1461 := by omega
  generalize d1 / 1461 = n4 at *
  generalize d1 - 1461 * n4 = d2 at *
  have h3 : d2 / 365 - d2 / 365 / 4 ≤ 3 := by omega
  have hd2 : d2 = 365 * (d2 / 365 - d2 / 365 / 4) + (d2 - 365 * (d2 / 365 - d2 / 365 / 4)) := by omega
  have h3' : d2 - 365 * (d2 / 365 - d2 / 365 / 4) < 365 ∨
    (d2 / 365 - d2 / 365 / 4 = 3 ∧ d2 - 365 * (d2 / 365 - d2 / 365 / 4) = 365) := by omega
  generalize d2 / 365 - d2 / 365 / 4 = n1 at *
  generalize d2 - 365 * n1 = yday at *
  have hleap : isLeapYear (400 * n400 + 100 * n100 + 4 * n4 + n1 + 1) = true ↔ n1 = 3 ∧ (n4 ≠ 24 ∨ n100 = 3) := by
    unfold isLeapYear
    rw [decide_eq_true_iff]
    omega
  refine ⟨400 * n400 + 100 * n100 + 4 * n4 + n1 + 1, yday, ?_, ?_, ?_⟩
  · unfold monthDay
    split
    · rfl
    · simp only
      generalize (if isLeapYear (400 * n400 + 100 * n100 + 4 * n4 + n1 + 1) = true ∧ 59 < yday then yday - 1 else yday) = day
      split <;> rfl
  · split
    · omega
    · rename_i hl
      rw [hleap] at hl
      omega
  · have q4 : (400 * n400 + 100 * n100 + 4 * n4 + n1 + 1 - 1 : Int) / 4 = 100 * n400 + 25 * n100 + n4 := by clear hdays hdd hd1 hd2; omega
    have q100 : (400 * n400 + 100 * n100 + 4 * n4 + n1 + 1 - 1 : Int) / 100 = 4 * n400 + n100 := by clear hdays hdd hd1 hd2; omega
    have q400 : (400 * n400 + 100 * n100 + 4 * n4 + n1 + 1 - 1 : Int) / 400 = n400 := by clear hdays hdd hd1 hd2; omega
    rw [q4, q100, q400]
    omega

theorem civil_spec (days : Int) :
    dayNumber (civil days).1 (civil days).2.1 (civil days).2.2 = days ∧ 1 ≤ (civil days).2.1 ∧ (civil days).2.1 ≤ 12 ∧
      1 ≤ (civil days).2.2 ∧ (civil days).2.2 ≤ (monthLengths (civil days).1).getD ((civil days).2.1 - 1) 0 := by
  obtain ⟨y, yday, h1, h2, h3⟩ := civil_eq days
  rw [h1]
  obtain ⟨g1, g2, g3, g4, g5⟩ := monthDay_spec h2
  simp only
  rw [monthLengths_eq]
  refine ⟨?_, g1, g2, g3, g4⟩
  unfold dayNumber
  rw [monthLengths_eq]
  omega

theorem digitsW_length (w n : Nat) : (digitsW w n).length = w := by
  induction w generalizing n with
  | zero => rfl
  | succ w ih => simp [digitsW, ih]

theorem digitsW_digits (w n : Nat) : ∀ c ∈ digitsW w n, isDigit c = true := by
  induction w generalizing n with
  | zero => intro c hc; cases hc
  | succ w ih =>
    intro c hc
    simp only [digitsW, List.mem_append, List.mem_cons, List.not_mem_nil, or_false] at hc
    rcases hc with hc | rfl
    · exact ih _ c hc
    · exact digitCh_isDigit (Nat.mod_lt _ (by norm_num))

theorem digitsW_val (w n : Nat) : digitsVal (digitsW w n) = n % 10 ^ w := by
  induction w generalizing n with
  | zero => simp [digitsW, digitsVal, Nat.mod_one]
  | succ w ih =>
    rw [digitsW, digitsVal_append, ih]
    have h1 : digitsVal [UInt8.ofNat (48 + n % 10)] = n % 10 := by
      have := digitCh_val (d := n % 10) (Nat.mod_lt _ (by norm_num))
      simpa [digitsVal] using this
    rw [h1]
    have h2 : n % 10 ^ (w + 1) = n / 10 % 10 ^ w * 10 + n % 10 := by
      rw [pow_succ, mul_comm (10 ^ w) 10, Nat.mod_mul]; ring
    rw [h2]
    simp

theorem number_digitsW {w n : Nat} (h : n < 10 ^ w) : number (digitsW w n) = some n := by
  unfold number
  rw [if_pos (List.all_eq_true.mpr (digitsW_digits w n)), digitsW_val, Nat.mod_eq_of_lt h]

theorem readFraction_fraction {ns : Nat} (h : ns < 1000000000) : readFraction (fraction ns ++ [90]) = some ns := by
  unfold fraction
  simp only
  have hsplit : digitsW 9 ns = ((digitsW 9 ns).reverse.dropWhile (· = 48)).reverse ++
      List.replicate (9 - ((digitsW 9 ns).reverse.dropWhile (· = 48)).reverse.length) 48 := by
    have h1 := List.takeWhile_append_dropWhile (p := (· = (48 : UInt8))) (l := (digitsW 9 ns).reverse)
    have h2 : (digitsW 9 ns).reverse.takeWhile (· = 48) = List.replicate ((digitsW 9 ns).reverse.takeWhile (· = 48)).length 48 := by
      rw [List.eq_replicate_iff]
      refine ⟨rfl, fun c hc => ?_⟩
      have := List.all_eq_true.mp (List.all_takeWhile (l := (digitsW 9 ns).reverse) (p := fun x => decide (x = 48))) c hc
      simpa using this
    have h3 : ((digitsW 9 ns).reverse.takeWhile (· = 48)).length + ((digitsW 9 ns).reverse.dropWhile (· = 48)).length = 9 := by
      rw [← List.length_append, h1, List.length_reverse, digitsW_length]
    have h4 := congrArg List.reverse h1
    rw [List.reverse_append, List.reverse_reverse, h2, List.reverse_replicate] at h4
    rw [List.length_reverse, show 9 - ((digitsW 9 ns).reverse.dropWhile (· = 48)).length =
      ((digitsW 9 ns).reverse.takeWhile (· = 48)).length by omega]
    exact h4.symm
  have hval := digitsW_val 9 ns
  rw [Nat.mod_eq_of_lt (by norm_num; exact h), hsplit, digitsVal_append, digitsVal_replicate, List.length_replicate, Nat.add_zero] at hval
  have hdig : ∀ c ∈ ((digitsW 9 ns).reverse.dropWhile (· = 48)).reverse, isDigit c = true := by
    intro c hc
    apply digitsW_digits 9 ns
    rw [hsplit]
    exact List.mem_append_left _ hc
  have hlen : ((digitsW 9 ns).reverse.dropWhile (· = 48)).reverse.length ≤ 9 := by
    have := congrArg List.length hsplit
    rw [digitsW_length, List.length_append] at this
    omega
  clear hsplit
  generalize ((digitsW 9 ns).reverse.dropWhile (· = 48)).reverse = ds at *
  split
  · rename_i h0
    subst h0
    simp [digitsVal] at hval
    subst hval
    rfl
  · rename_i h0
    obtain ⟨t1, t2⟩ := takeWhile_digits (ds := ds) (rest := [90]) hdig (by intro c hc; simp at hc; subst hc; decide)
    show (let ds' := (ds ++ [90]).takeWhile isDigit
      if ds' ≠ [] ∧ ds'.length ≤ 9 ∧ (ds ++ [90]).dropWhile isDigit = [90] then some (digitsVal ds' * 10 ^ (9 - ds'.length)) else none) = _
    simp only [t1, t2]
    rw [if_pos ⟨h0, hlen, trivial⟩, hval]

theorem readDateTime_parts {y m d h n s f : Nat} (hy : y < 10000) (hm1 : 1 ≤ m) (hm2 : m ≤ 12) (hd1 : 1 ≤ d)
    (hd2 : d ≤ (monthLengths y).getD (m - 1) 0) (hh : h ≤ 23) (hn : n ≤ 59) (hs : s ≤ 59) (hf : f < 1000000000) :
    readDateTime (digitsW 4 y ++ [45] ++ digitsW 2 m ++ [45] ++ digitsW 2 d ++ [84] ++ digitsW 2 h ++ [58] ++ digitsW 2 n ++ [58]
      ++ digitsW 2 s ++ fraction f ++ [90]) =
      some (((((dayNumber y m d - dayNumber 1970 1 1) * 24 + h) * 60 + n) * 60 + s) * 1000000000 + f) := by
  have hd31 : d < 100 := by
    have : ∀ y : Int, ∀ i : Nat, (monthLengths y).getD i 0 ≤ 31 := by
      intro y i
      rw [monthLengths_eq]
      by_cases hi : i < 12
      · have : ∀ leap : Bool, ∀ i : Fin 12, (monthLens leap).getD i 0 ≤ 31 := by decide
        exact this _ ⟨i, hi⟩
      · have : (monthLens (isLeapYear y))[i]? = none := List.getElem?_eq_none (by simp [monthLens]; omega)
        rw [List.getD_eq_getElem?_getD, this]; simp
    have := this y (m - 1)
    omega
  have e1 := number_digitsW (w := 4) (n := y) (by omega)
  have e2 := number_digitsW (w := 2) (n := m) (by omega)
  have e3 := number_digitsW (w := 2) (n := d) (by omega)
  have e4 := number_digitsW (w := 2) (n := h) (by omega)
  have e5 := number_digitsW (w := 2) (n := n) (by omega)
  have e6 := number_digitsW (w := 2) (n := s) (by omega)
  have e7 := readFraction_fraction hf
  simp only [digitsW, List.nil_append, List.cons_append] at e1 e2 e3 e4 e5 e6 ⊢
  unfold readDateTime
  simp only [e1, e2, e3, e4, e5, e6, e7, Option.bind_eq_bind, Option.bind_some]
  rw [if_pos ⟨hm1, hm2, hd1, hd2, hh, hn, hs⟩]

theorem time_split (t : Int) :
    (t / 1000000000 % 86400).toNat < 86400 ∧ (t % 1000000000).toNat < 1000000000 ∧
      t = (t / 1000000000 / 86400 * 86400 + ((t / 1000000000 % 86400).toNat : Int)) * 1000000000 + ((t % 1000000000).toNat : Int) := by
  have h1 := Int.emod_nonneg t (show (1000000000 : Int) ≠ 0 by norm_num)
  have h2 := Int.emod_lt_of_pos t (show (0 : Int) < 1000000000 by norm_num)
  have h3 := Int.mul_ediv_add_emod t 1000000000
  have h4 := Int.emod_nonneg (t / 1000000000) (show (86400 : Int) ≠ 0 by norm_num)
  have h5 := Int.emod_lt_of_pos (t / 1000000000) (show (0 : Int) < 86400 by norm_num)
  have h6 := Int.mul_ediv_add_emod (t / 1000000000) 86400
  generalize t % 1000000000 = a at *
  generalize t / 1000000000 % 86400 = b at *
  generalize t / 1000000000 / 86400 = c at *
  generalize t / 1000000000 = d at *
  omega

/-- The text of a time between the quotation marks. -/
theorem marshalTime_spec {t : GoTime} {b : Bytes} (h : marshalTime t = some b) :
    ∃ s : Bytes, b = [34] ++ s ++ [34] ∧ readDateTime s = some t ∧ ∀ c ∈ s, PlainCh c ∧ c < 128 := by
  unfold marshalTime at h
  simp only at h
  obtain ⟨g1, g2, g3, g4, g5⟩ := civil_spec (t / 1000000000 / 86400 + 719162)
  generalize civil (t / 1000000000 / 86400 + 719162) = q at *
  obtain ⟨y, m, d⟩ := q
  simp only at h g1 g2 g3 g4 g5
  split at h
  · rename_i hy
    injection h with h
    obtain ⟨hs, hf, hsec⟩ := time_split t
    have hday : t / 1000000000 / 86400 = dayNumber y m d - 719162 := by rw [g1]; ring
    rw [hday] at hsec
    generalize (t / 1000000000 % 86400).toNat = s at *
    generalize (t % 1000000000).toNat = f at *
    obtain ⟨y, rfl⟩ : ∃ k : Nat, y = k := ⟨y.toNat, by omega⟩
    rw [Int.toNat_natCast] at h
    refine ⟨digitsW 4 y ++ [45] ++ digitsW 2 m ++ [45] ++ digitsW 2 d ++ [84] ++ digitsW 2 (s / 3600) ++ [58] ++ digitsW 2 (s / 60 % 60)
      ++ [58] ++ digitsW 2 (s % 60) ++ fraction f ++ [90], ?_, ?_, ?_⟩
    · rw [← h]; simp
    · rw [readDateTime_parts (by omega) g2 g3 g4 g5 (by omega) (by omega) (by omega) hf]
      have h1970 : dayNumber 1970 1 1 = 719162 := by decide
      rw [h1970]
      congr 1
      rw [hsec]
      clear hsec hday g1 g5
      omega
    · have hdig : ∀ c, isDigit c = true → PlainCh c ∧ c < 128 := by
        intro c hc
        rcases isDigit_cases hc with rfl | rfl | rfl | rfl | rfl | rfl | rfl | rfl | rfl | rfl <;> (unfold PlainCh; decide)
      have hW : ∀ w n, ∀ c ∈ digitsW w n, PlainCh c ∧ c < 128 := fun w n c hc => hdig c (digitsW_digits w n c hc)
      have hone : ∀ x ∈ ([45, 84, 58, 46, 90] : Bytes), PlainCh x ∧ x < 128 := by unfold PlainCh; decide
      have hfr : ∀ c ∈ fraction f, PlainCh c ∧ c < 128 := by
        intro c hc
        unfold fraction at hc
        simp only at hc
        split at hc
        · cases hc
        · rcases List.mem_cons.mp hc with rfl | hc
          · exact hone _ (by simp)
          · rw [List.mem_reverse] at hc
            exact hW 9 f c (List.mem_reverse.mp ((List.dropWhile_sublist _).subset hc))
      intro c hc
      simp only [List.mem_append, List.mem_cons, List.not_mem_nil, or_false] at hc
      rcases hc with (((((((((((hc | hc) | hc) | hc) | hc) | hc) | hc) | hc) | hc) | hc) | hc) | hc) | hc
      · exact hW _ _ c hc
      · exact hone c (by simp [hc])
      · exact hW _ _ c hc
      · exact hone c (by simp [hc])
      · exact hW _ _ c hc
      · exact hone c (by simp [hc])
      · exact hW _ _ c hc
      · exact hone c (by simp [hc])
      · exact hW _ _ c hc
      · exact hone c (by simp [hc])
      · exact hW _ _ c hc
      · exact hfr c hc
      · exact hone c (by simp [hc])
  · cases h

theorem time_days (t : Int) :
    -62167219200000000000 ≤ t ∧ t < 253402300800000000000 ↔ -719528 ≤ t / 1000000000 / 86400 ∧ t / 1000000000 / 86400 < 2932897 := by
  omega

/-- The times that can be written: those of the years 0 to 9999. -/
theorem marshalTime_isSome (t : Int) :
    (marshalTime t).isSome ↔ -62167219200000000000 ≤ t ∧ t < 253402300800000000000 := by
  have hc : (marshalTime t).isSome ↔ 0 ≤ (civil (t / 1000000000 / 86400 + 719162)).1 ∧ (civil (t / 1000000000 / 86400 + 719162)).1 < 10000 := by
    unfold marshalTime
    simp only
    generalize civil (t / 1000000000 / 86400 + 719162) = q
    obtain ⟨y, m, d⟩ := q
    simp only
    split
    · simp_all
    · simp_all
  rw [hc]
  obtain ⟨y, yday, h1, h2, h3⟩ := civil_eq (t / 1000000000 / 86400 + 719162)
  rw [h1]
  simp only
  have hl : isLeapYear y = true ↔ y % 4 = 0 ∧ (y % 100 ≠ 0 ∨ y % 400 = 0) := by unfold isLeapYear; rw [decide_eq_true_iff]
  have h2' : yday < 366 ∧ (yday < 365 ∨ (y % 4 = 0 ∧ (y % 100 ≠ 0 ∨ y % 400 = 0))) := by
    split at h2
    · rename_i h; rw [hl] at h; omega
    · omega
  rw [time_days t]
  generalize t / 1000000000 / 86400 = D at *
  clear hc h1 h2 hl
  have a1 : y ≤ -1 → (y - 1) / 4 - (y - 1) / 100 + (y - 1) / 400 ≤ -1 := by clear h3 h2'; omega
  have a2 : 0 ≤ y → -1 ≤ (y - 1) / 4 - (y - 1) / 100 + (y - 1) / 400 := by clear h3 h2' a1; omega
  have a3 : 10000 ≤ y → 2424 ≤ (y - 1) / 4 - (y - 1) / 100 + (y - 1) / 400 := by clear h3 h2' a1 a2; omega
  have a4 : y ≤ 9999 → (y - 1) / 4 - (y - 1) / 100 + (y - 1) / 400 ≤ 2424 := by clear h3 h2' a1 a2 a3; omega
  generalize hg : (y - 1) / 4 - (y - 1) / 100 + (y - 1) / 400 = g at *
  have h3' : (D + 719162 : Int) = 365 * (y - 1) + g + yday := by rw [h3, ← hg]; ring
  clear h3 hg
  omega

end Egts
