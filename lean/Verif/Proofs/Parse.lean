import Verif.Spec.Parse
import Verif.Proofs.JsonFloat
import Mathlib.Tactic.Ring
import Mathlib.Tactic.Linarith
import Mathlib.Tactic.NormNum
import Mathlib.Tactic.IntervalCases

/-! # Decimal numbers and times on command lines -/

namespace Egts

theorem decDigit_iff {c : UInt8} : decDigit c = true ↔ 48 ≤ c ∧ c ≤ 57 := by simp [decDigit]

theorem digit_sub {c : UInt8} (h : 48 ≤ c ∧ c ≤ 57) : (c - 48).toNat = c.toNat - 48 := by
  have h1 : 48 ≤ c.toNat := h.1
  have h2 : c.toNat ≤ 57 := h.2
  rw [UInt8.toNat_sub_of_le _ _ h.1]; rfl

theorem natOf_append (a b : Bytes) : natOf (a ++ b) = b.foldl (fun n c => n * 10 + (c.toNat - 48)) (natOf a) := by
  simp [natOf, List.foldl_append]

theorem mantLoop_digits (dot any : Bool) (ds r : Bytes) (h : Digits ds) : ∀ m frac,
    mantLoop dot any m frac (ds ++ r) = mantLoop dot (any || !ds.isEmpty) (ds.foldl (fun n c => n * 10 + (c.toNat - 48)) m)
      (if dot then frac + ds.length else frac) r := by
  induction ds generalizing any with
  | nil => intro m frac; cases dot <;> simp
  | cons c ds ih =>
    intro m frac
    have hc := h c (by simp)
    have hne : c ≠ 46 := by rintro rfl; exact absurd hc.1 (by decide)
    rw [List.cons_append, mantLoop, if_neg hne, if_pos (decDigit_iff.mpr hc), ih true (fun x hx => h x (by simp [hx])), digit_sub hc]
    cases dot
    · simp
    · simp [Nat.add_assoc, Nat.add_comm 1]

/-- no digit in front, and no point unless there was one -/
theorem mantLoop_stop (dot any : Bool) (m frac : Nat) (r : Bytes) (h1 : ∀ c, r.head? = some c → decDigit c = false)
    (h2 : dot = true ∨ r.head? ≠ some 46) : mantLoop dot any m frac r = (m, frac, any, r) := by
  cases r with
  | nil => rfl
  | cons c r =>
    rw [mantLoop]
    by_cases hc : c = 46
    · subst hc
      rcases h2 with rfl | h2
      · simp
      · simp at h2
    · rw [if_neg hc, if_neg (by simp [h1 c rfl])]

theorem mant_whole (whole r : Bytes) (h : Digits whole) (h1 : ∀ c, r.head? = some c → decDigit c = false) (h2 : r.head? ≠ some 46) :
    mantLoop false false 0 0 (whole ++ r) = (natOf whole, 0, !whole.isEmpty, r) := by
  rw [mantLoop_digits _ _ _ _ h, mantLoop_stop _ _ _ _ _ h1 (.inr h2)]; simp [natOf]

theorem mant_frac (whole frac r : Bytes) (h : Digits whole) (h' : Digits frac) (h1 : ∀ c, r.head? = some c → decDigit c = false) :
    mantLoop false false 0 0 (whole ++ 46 :: (frac ++ r)) = (natOf (whole ++ frac), frac.length, !whole.isEmpty || !frac.isEmpty, r) := by
  rw [mantLoop_digits _ _ _ _ h, mantLoop, if_pos rfl, if_neg (by simp), mantLoop_digits _ _ _ _ h', mantLoop_stop _ _ _ _ _ h1 (.inl rfl)]
  simp [natOf]

theorem expLoop_digits (ds : Bytes) (h : Digits ds) : ∀ e, ds.foldl (fun n c => n * 10 + (c.toNat - 48)) e < 100000 →
    expLoop e ds = some (ds.foldl (fun n c => n * 10 + (c.toNat - 48)) e) := by
  induction ds with
  | nil => intro e _; rfl
  | cons c ds ih =>
    intro e he
    have hc := h c (by simp)
    have mono : ∀ (l : Bytes) (x : Nat), x ≤ l.foldl (fun n c => n * 10 + (c.toNat - 48)) x := by
      intro l
      induction l with
      | nil => intro x; simp
      | cons a l ih => intro x; exact le_trans (show x ≤ x * 10 + (a.toNat - 48) by omega) (ih _)
    have hlt : e < 10000 := by
      have := mono ds (e * 10 + (c.toNat - 48))
      simp only [List.foldl_cons] at he
      omega
    rw [expLoop, if_pos (decDigit_iff.mpr hc), if_pos hlt, digit_sub hc]
    exact ih (fun x hx => h x (by simp [hx])) _ he

theorem expLoop_isSome (ds : Bytes) : ∀ e, (expLoop e ds).isSome ↔ Digits ds := by
  induction ds with
  | nil => intro e; simp [expLoop, Digits]
  | cons c ds ih =>
    intro e
    rw [expLoop]
    by_cases hc : decDigit c
    · rw [if_pos hc, ih]
      simp [Digits, decDigit_iff.mp hc]
    · rw [if_neg hc]
      simp only [Option.isSome_none, Bool.false_eq_true, false_iff]
      intro h
      exact hc (decDigit_iff.mpr (h c (by simp)))

theorem expDigits_eq {ds : Bytes} (h : Digits ds) (hn : ds ≠ []) (hb : natOf ds < 100000) : expDigits ds = some (natOf ds) := by
  cases ds with
  | nil => exact absurd rfl hn
  | cons c r => exact expLoop_digits _ h 0 hb

theorem expDigits_isSome (ds : Bytes) : (expDigits ds).isSome ↔ ds ≠ [] ∧ Digits ds := by
  cases ds with
  | nil => simp [expDigits]
  | cons c r => simp only [expDigits, ne_eq, reduceCtorEq, not_false_eq_true, true_and]; exact expLoop_isSome _ 0

theorem signed_isSome {neg : Bool} {o : Option Nat} : (signed neg o).isSome ↔ o.isSome := by cases o <;> simp [signed]

theorem digits_head {ds : Bytes} (h : Digits ds) {c : UInt8} {r : Bytes} (e : ds = c :: r) : c ≠ 43 ∧ c ≠ 45 := by
  have := h c (by simp [e])
  exact ⟨by rintro rfl; exact absurd this.1 (by decide), by rintro rfl; exact absurd this.1 (by decide)⟩

theorem readExp_cons (c : UInt8) (r : Bytes) (hc : c = 101 ∨ c = 69) : readExp (c :: r) = match r with
      | 43 :: r => signed false (expDigits r)
      | 45 :: r => signed true (expDigits r)
      | r => signed false (expDigits r) := by
  have h : lowerByte c = 101 := by rcases hc with rfl | rfl <;> decide
  simp only [readExp, h, if_true]
  split
  · rfl
  · rfl
  · split <;> simp_all

theorem readExp_eq {s : Bytes} {e : Int} (h : ExpText s e) (hb : |e| < 100000) : readExp s = some e := by
  rcases h with ⟨rfl, rfl⟩ | ⟨sign, σ, ds, hs, hsg, hn, hd, rfl⟩
  · rfl
  · obtain ⟨c, hc, rfl⟩ : ∃ c, (c = 101 ∨ c = 69) ∧ s = c :: (sign ++ ds) := by
      rcases hs with rfl | rfl
      · exact ⟨101, .inl rfl, rfl⟩
      · exact ⟨69, .inr rfl, rfl⟩
    rw [readExp_cons c _ hc]
    rcases hsg with ⟨rfl | rfl, rfl⟩ | ⟨rfl, rfl⟩
    · have hb' : natOf ds < 100000 := by simp only [one_mul, Nat.abs_cast] at hb; omega
      obtain ⟨x, r, rfl⟩ : ∃ x r, ds = x :: r := by cases ds with | nil => exact absurd rfl hn | cons x r => exact ⟨x, r, rfl⟩
      have hx := digits_head hd rfl
      rw [List.nil_append]
      split
      · rename_i heq; injection heq with h1 _; exact absurd h1 hx.1
      · rename_i heq; injection heq with h1 _; exact absurd h1 hx.2
      · rw [expDigits_eq hd hn hb']; simp [signed]
    · have hb' : natOf ds < 100000 := by simp only [one_mul, Nat.abs_cast] at hb; omega
      show signed _ (expDigits ds) = _
      rw [expDigits_eq hd hn hb']; simp [signed]
    · have hb' : natOf ds < 100000 := by simp only [neg_mul, one_mul, abs_neg, Nat.abs_cast] at hb; omega
      show signed _ (expDigits ds) = _
      rw [expDigits_eq hd hn hb']; simp [signed]

theorem lower_e (c : UInt8) (h : lowerByte c = 101) : c = 101 ∨ c = 69 := by
  have key : ∀ n : Fin 256, lowerByte (UInt8.ofNat n) = 101 → UInt8.ofNat n = 101 ∨ UInt8.ofNat n = 69 := by decide +kernel
  have := key ⟨c.toNat, c.toNat_lt⟩
  simpa using this (by simpa using h)

theorem readExp_some {s : Bytes} (h : (readExp s).isSome) : ∃ e, ExpText s e := by
  cases s with
  | nil => exact ⟨0, .inl ⟨rfl, rfl⟩⟩
  | cons c r =>
    by_cases hc : lowerByte c = 101
    · have hc' := lower_e c hc
      rw [readExp_cons c r hc'] at h
      have put : ∀ sign σ ds, r = sign ++ ds → SignText sign σ → (expDigits ds).isSome → ∃ e, ExpText (c :: r) e := by
        intro sign σ ds hr hs hd
        obtain ⟨h1, h2⟩ := (expDigits_isSome ds).mp hd
        refine ⟨σ * natOf ds, .inr ⟨sign, σ, ds, ?_, hs, h1, h2, rfl⟩⟩
        subst hr
        rcases hc' with rfl | rfl
        · exact .inl rfl
        · exact .inr rfl
      split at h
      · exact put [43] 1 _ rfl (.inl ⟨.inr rfl, rfl⟩) (signed_isSome.mp h)
      · exact put [45] (-1) _ rfl (.inr ⟨rfl, rfl⟩) (signed_isSome.mp h)
      · exact put [] 1 _ rfl (.inl ⟨.inl rfl, rfl⟩) (signed_isSome.mp h)
    · simp [readExp, hc] at h

theorem expText_head {s : Bytes} {e : Int} (h : ExpText s e) : (∀ c, s.head? = some c → decDigit c = false) ∧ s.head? ≠ some 46 := by
  rcases h with ⟨rfl, _⟩ | ⟨sign, σ, ds, rfl | rfl, _⟩
  · simp
  · constructor
    · intro c hc
      have : c = 101 := by simpa using hc.symm
      subst this; decide
    · intro hc; simp at hc
  · constructor
    · intro c hc
      have : c = 69 := by simpa using hc.symm
      subst this; decide
    · intro hc; simp at hc

theorem readUnsigned_eq {whole frac ex : Bytes} {e : Int} (h1 : Digits whole) (h2 : Digits frac) (hn : whole ≠ [] ∨ frac ≠ []) (he : ExpText ex e)
    (hb : |e| < 100000) (s : Bytes) (hs : s = whole ++ ex ∧ frac = [] ∨ s = whole ++ go!"." ++ frac ++ ex) :
    readUnsigned s = some (natOf (whole ++ frac) * (10 : Rat) ^ (e - frac.length)) := by
  obtain ⟨g1, g2⟩ := expText_head he
  have hany : (!whole.isEmpty || !frac.isEmpty) = true := by
    rcases hn with h | h <;> cases whole <;> cases frac <;> simp_all
  rcases hs with ⟨rfl, rfl⟩ | rfl
  · have hw : (!whole.isEmpty) = true := by simpa using hany
    simp only [readUnsigned, mant_whole whole ex h1 g1 g2, hw, if_true, readExp_eq he hb, List.append_nil]
    simp
  · have e1 : whole ++ go!"." ++ frac ++ ex = whole ++ 46 :: (frac ++ ex) := by simp
    simp only [readUnsigned, e1, mant_frac whole frac ex h1 h2 g1, hany, if_true, readExp_eq he hb]
    simp

theorem unsigned_head {whole frac ex s : Bytes} (h1 : Digits whole) (hn : whole ≠ [] ∨ frac ≠ [])
    (hs : s = whole ++ ex ∧ frac = [] ∨ s = whole ++ go!"." ++ frac ++ ex) : s.head? ≠ some 43 ∧ s.head? ≠ some 45 := by
  cases whole with
  | nil =>
    rcases hs with ⟨_, rfl⟩ | rfl
    · simp at hn
    · simp
  | cons c w =>
    have := digits_head h1 rfl
    rcases hs with ⟨rfl, _⟩ | rfl <;> simp [this]

theorem readFloat_plain {s : Bytes} (h : s.head? ≠ some 43 ∧ s.head? ≠ some 45) : readFloat s = readUnsigned s := by
  unfold readFloat
  split
  · simp at h
  · simp at h
  · rfl

theorem readFloat_eq {s : Bytes} {q : Rat} {e : Int} (h : DecimalNumber s q e) (hb : |e| < 100000) : readFloat s = some q := by
  obtain ⟨sign, σ, whole, frac, ex, hs, h1, h2, hn, he, hx, rfl⟩ := h
  have key : ∀ u, u = whole ++ ex ∧ frac = [] ∨ u = whole ++ go!"." ++ frac ++ ex →
      readUnsigned u = some (natOf (whole ++ frac) * (10 : Rat) ^ (e - frac.length)) := fun u hu => readUnsigned_eq h1 h2 hn he hb u hu
  obtain ⟨u, rfl, hu⟩ : ∃ u, s = sign ++ u ∧ (u = whole ++ ex ∧ frac = [] ∨ u = whole ++ go!"." ++ frac ++ ex) := by
    rcases hx with ⟨rfl, hf⟩ | rfl
    · exact ⟨_, by simp, .inl ⟨rfl, hf⟩⟩
    · exact ⟨whole ++ go!"." ++ frac ++ ex, by simp, .inr rfl⟩
  rcases hs with ⟨rfl | rfl, rfl⟩ | ⟨rfl, rfl⟩
  · rw [List.nil_append, readFloat_plain (unsigned_head h1 hn hu), key u hu]; simp
  · show readUnsigned u = _
    rw [key u hu]; simp
  · show (readUnsigned u).map _ = _
    rw [key u hu]; simp

theorem digits_takeWhile (s : Bytes) : Digits (s.takeWhile decDigit) := by
  intro c hc
  exact decDigit_iff.mp (List.all_eq_true.mp (List.all_takeWhile (p := decDigit) (l := s)) c hc)

theorem dropWhile_head (s : Bytes) : ∀ c, (s.dropWhile decDigit).head? = some c → decDigit c = false := by
  intro c hc
  have := List.head?_dropWhile_not decDigit s
  rw [hc] at this
  simpa using this

theorem readUnsigned_some {s : Bytes} (h : (readUnsigned s).isSome) :
    ∃ whole frac ex e, Digits whole ∧ Digits frac ∧ (whole ≠ [] ∨ frac ≠ []) ∧ ExpText ex e ∧
      (s = whole ++ ex ∧ frac = [] ∨ s = whole ++ go!"." ++ frac ++ ex) := by
  have e0 := (List.takeWhile_append_dropWhile (p := decDigit) (l := s)).symm
  have d1 := digits_takeWhile s
  have d2 := dropWhile_head s
  generalize s.takeWhile decDigit = whole at e0 d1
  generalize s.dropWhile decDigit = r at e0 d2
  by_cases hd : r.head? = some 46
  · obtain ⟨r, rfl⟩ : ∃ t, r = 46 :: t := by
      cases r with
      | nil => simp at hd
      | cons c t => exact ⟨t, by simpa using hd⟩
    have e1 := (List.takeWhile_append_dropWhile (p := decDigit) (l := r)).symm
    have d3 := digits_takeWhile r
    have d4 := dropWhile_head r
    generalize r.takeWhile decDigit = frac at e1 d3
    generalize r.dropWhile decDigit = ex at e1 d4
    subst e1 e0
    simp only [readUnsigned, mant_frac whole frac ex d1 d3 d4] at h
    split at h
    · rename_i hany
      obtain ⟨e, he⟩ := readExp_some (s := ex) (by simpa using h)
      refine ⟨whole, frac, ex, e, d1, d3, ?_, he, .inr (by simp)⟩
      cases whole <;> cases frac <;> simp_all
    · simp at h
  · subst e0
    simp only [readUnsigned, mant_whole whole r d1 d2 hd] at h
    split at h
    · rename_i hany
      obtain ⟨e, he⟩ := readExp_some (s := r) (by simpa using h)
      exact ⟨whole, [], r, e, d1, by intro c hc; simp at hc, .inl (by intro h0; simp [h0] at hany), he, .inl ⟨rfl, rfl⟩⟩
    · simp at h

theorem readFloat_some {s : Bytes} (h : (readFloat s).isSome) : ∃ q e, DecimalNumber s q e := by
  have put : ∀ sign σ u, s = sign ++ u → SignText sign σ → (readUnsigned u).isSome → ∃ q e, DecimalNumber s q e := by
    intro sign σ u hs hsg hu
    obtain ⟨whole, frac, ex, e, h1, h2, h3, h4, h5⟩ := readUnsigned_some hu
    refine ⟨_, e, sign, σ, whole, frac, ex, hsg, h1, h2, h3, h4, ?_, rfl⟩
    rcases h5 with ⟨rfl, hf⟩ | rfl
    · exact .inl ⟨by simp [hs], hf⟩
    · exact .inr (by simp [hs])
  unfold readFloat at h
  split at h
  · exact put [43] 1 _ rfl (.inl ⟨.inr rfl, rfl⟩) h
  · exact put [45] (-1) _ rfl (.inr ⟨rfl, rfl⟩) (by simpa using h)
  · exact put [] 1 _ rfl (.inl ⟨.inl rfl, rfl⟩) h

theorem floatChar_digits {ds : Bytes} (h : Digits ds) : ds.all floatChar = true := by
  rw [List.all_eq_true]
  intro c hc
  simp [floatChar, decDigit_iff.mpr (h c hc)]

theorem floatChar_sign {s : Bytes} {σ : Int} (h : SignText s σ) : s.all floatChar = true := by
  rcases h with ⟨rfl | rfl, _⟩ | ⟨rfl, _⟩ <;> decide

theorem floatChar_number {s : Bytes} {q : Rat} {e : Int} (h : DecimalNumber s q e) : s.all floatChar = true := by
  obtain ⟨sign, σ, whole, frac, ex, hs, h1, h2, _, he, hx, _⟩ := h
  have hex : ex.all floatChar = true := by
    rcases he with ⟨rfl, _⟩ | ⟨sg, σ', ds, hh, hsg, _, hd, _⟩
    · rfl
    · have a := floatChar_sign hsg
      have b := floatChar_digits hd
      rcases hh with rfl | rfl
      · rw [List.all_append, List.all_append, a, b]; decide
      · rw [List.all_append, List.all_append, a, b]; decide
  have a := floatChar_sign hs
  have b := floatChar_digits h1
  have c := floatChar_digits h2
  have p : (go!".").all floatChar = true := by decide
  rcases hx with ⟨rfl, _⟩ | rfl <;> simp only [List.all_append, a, b, c, hex, p, Bool.and_self]

/-! ## Nearest doubles -/

theorem roundEven_nearest (q : ℚ) (n : Int) : |(roundEven q : ℚ) - q| ≤ |(n : ℚ) - q| := by
  by_cases h : n = roundEven q
  · rw [h]
  · have h1 : (1 : ℚ) ≤ |(n : ℚ) - roundEven q| := by
      have : (1 : Int) ≤ |n - roundEven q| := Int.one_le_abs (by omega)
      exact_mod_cast this
    have h2 := roundEven_err q
    have h3 : |(n : ℚ) - roundEven q| ≤ |(n : ℚ) - q| + |(roundEven q : ℚ) - q| := by
      have := abs_sub_le (n : ℚ) q (roundEven q)
      rwa [abs_sub_comm q] at this
    linarith

theorem round_scaled (q u : ℚ) (hu : 0 < u) (n : Int) : |(roundEven (q / u) : ℚ) * u - q| ≤ |(n : ℚ) * u - q| := by
  have key : ∀ m : Int, |(m : ℚ) * u - q| = |(m : ℚ) - q / u| * u := by
    intro m
    rw [← abs_of_pos hu, ← abs_mul, abs_of_pos hu, sub_mul, div_mul_cancel₀ _ hu.ne']
  rw [key, key]
  exact mul_le_mul_of_nonneg_right (roundEven_nearest _ n) hu.le

theorem rnd_nearest_pos {x : ℚ} (hx : 0 < x) (n k : Int) (hn : |n| ≤ 2 ^ 53) : |rnd x - x| ≤ |(n : ℚ) * pow2 k - x| := by
  rw [rnd_pos_eq hx]
  obtain ⟨g1, _⟩ := ilog2_spec x hx
  set L := ilog2 x with hL
  by_cases hk : L - 52 ≤ k
  · obtain ⟨j, rfl⟩ : ∃ j : Nat, k = (L - 52) + j := ⟨(k - (L - 52)).toNat, by omega⟩
    have e : (n : ℚ) * pow2 (L - 52 + j) = ((n * 2 ^ j : Int) : ℚ) * pow2 (L - 52) := by
      rw [pow2_add, pow2_eq (j : Int)]; push_cast; rw [zpow_natCast]; ring
    rw [e]
    exact round_scaled _ _ (pow2_pos _) _
  · have h1 : (n : ℚ) * pow2 k ≤ pow2 L := by
      have a : (n : ℚ) ≤ 2 ^ 53 := by
        have : n ≤ 2 ^ 53 := le_trans (le_abs_self n) hn
        exact_mod_cast this
      have b : pow2 k ≤ pow2 (L - 53) := pow2_mono (by omega)
      have c : pow2 L = 2 ^ 53 * pow2 (L - 53) := by
        rw [show L = 53 + (L - 53) by ring, pow2_add, show 53 + (L - 53) - 53 = L - 53 by ring, pow2_eq 53]; norm_num
      rw [c]
      calc (n : ℚ) * pow2 k ≤ 2 ^ 53 * pow2 k := mul_le_mul_of_nonneg_right a (pow2_pos k).le
        _ ≤ 2 ^ 53 * pow2 (L - 53) := mul_le_mul_of_nonneg_left b (by norm_num)
    have h2 : |pow2 L - x| ≤ |(n : ℚ) * pow2 k - x| := by
      rw [abs_of_nonpos (by linarith), abs_of_nonpos (by linarith)]; linarith
    have e : pow2 L = ((2 ^ 52 : Int) : ℚ) * pow2 (L - 52) := by
      rw [show L = 52 + (L - 52) by ring, pow2_add, show 52 + (L - 52) - 52 = L - 52 by ring, pow2_eq 52]; norm_num
    refine le_trans ?_ h2
    rw [e]
    exact round_scaled _ _ (pow2_pos _) _

theorem rnd_neg' (x : ℚ) : rnd (-x) = -rnd x := by
  rcases lt_trichotomy x 0 with h | h | h
  · have := rnd_neg_eq (-x) (by linarith)
    rw [neg_neg] at this
    rw [this, neg_neg]
  · subst h; simp [rnd_zero]
  · exact rnd_neg_eq x h

/-- No number with a significand of 53 bits is nearer. -/
theorem rnd_nearest (x : ℚ) (n k : Int) (hn : |n| ≤ 2 ^ 53) : |rnd x - x| ≤ |(n : ℚ) * pow2 k - x| := by
  rcases lt_trichotomy x 0 with h | h | h
  · have := rnd_nearest_pos (x := -x) (by linarith) (-n) k (by rwa [abs_neg])
    rw [rnd_neg'] at this
    rw [← abs_neg, ← abs_neg ((n : ℚ) * pow2 k - x)]
    convert this using 2
    · ring
    · push_cast; ring
  · subst h
    rw [rnd_zero, sub_zero, abs_zero]
    exact abs_nonneg _
  · exact rnd_nearest_pos h n k hn

theorem isFloat64_neg {x : ℚ} (h : IsFloat64 x) : IsFloat64 (-x) := by
  obtain ⟨n, k, h1, h2, h3, rfl⟩ := h
  exact ⟨-n, k, by rwa [abs_neg], h2, h3, by push_cast; ring⟩

theorem isFloat64_rnd_pos {q : ℚ} (h1 : pow2 (-1022) ≤ q) (h2 : q < pow2 1024 - pow2 970) : IsFloat64 (rnd q) := by
  have hq : 0 < q := lt_of_lt_of_le (pow2_pos _) h1
  obtain ⟨n, hn1, hn2, hn3⟩ := rnd_form hq
  obtain ⟨g1, g2⟩ := ilog2_spec q hq
  have herr : |rnd q - q| ≤ 1 / 2 * pow2 (ilog2 q - 52) := by
    rw [rnd_pos_eq hq]
    have hu := pow2_pos (ilog2 q - 52)
    have e : (roundEven (q / pow2 (ilog2 q - 52)) : ℚ) * pow2 (ilog2 q - 52) - q
        = ((roundEven (q / pow2 (ilog2 q - 52)) : ℚ) - q / pow2 (ilog2 q - 52)) * pow2 (ilog2 q - 52) := by
      rw [sub_mul, div_mul_cancel₀ _ hu.ne']
    rw [e, abs_mul, abs_of_pos hu]
    exact mul_le_mul_of_nonneg_right (roundEven_err _) hu.le
  have hlo : -1022 ≤ ilog2 q := by
    by_contra hc
    have : pow2 (ilog2 q + 1) ≤ pow2 (-1022) := pow2_mono (by omega)
    linarith
  have hhi : ilog2 q ≤ 1023 := by
    by_contra hc
    have : pow2 1024 ≤ pow2 (ilog2 q) := pow2_mono (by omega)
    have := pow2_pos 970
    linarith
  generalize ilog2 q = L at *
  rcases Nat.lt_or_ge n (2 ^ 53) with hlt | hge
  · refine ⟨n, L - 52, ?_, by omega, by omega, ?_⟩
    · rw [Nat.abs_cast]; exact_mod_cast hlt
    · rw [hn3, pow2_eq]; push_cast; rfl
  · have hn : n = 2 ^ 53 := by omega
    have e1 : rnd q = 2 ^ 52 * pow2 (L - 51) := by
      rw [hn3, hn, show L - 51 = 1 + (L - 52) by ring, pow2_add, pow2_eq 1]; push_cast; ring
    rcases lt_or_ge L 1023 with hL | hL
    · refine ⟨2 ^ 52, L - 51, by norm_num, by omega, by omega, ?_⟩
      rw [e1, pow2_eq]; push_cast; rfl
    · exfalso
      have hL : L = 1023 := by omega
      subst hL
      have e2 : rnd q = pow2 1024 := by
        rw [e1, show (1024 : Int) = 52 + (1023 - 51) by norm_num, pow2_add, pow2_eq 52]; norm_num
      have e3 : 1 / 2 * pow2 (1023 - 52) = pow2 970 := by
        rw [show (1023 - 52 : Int) = 1 + 970 by norm_num, pow2_add, pow2_eq 1]; ring
      rw [e2, e3] at herr
      have := (abs_le.mp herr).2
      linarith

theorem roundEven_bound {t : ℚ} (h : |t| ≤ 2 ^ 52) : |roundEven t| < 2 ^ 53 := by
  have h1 := roundEven_err t
  have h2 : |(roundEven t : ℚ)| ≤ 2 ^ 52 + 1 / 2 := by
    have := abs_sub_abs_le_abs_sub (roundEven t : ℚ) t
    linarith
  have h3 : |(roundEven t : ℚ)| < 2 ^ 53 := lt_of_le_of_lt h2 (by norm_num)
  exact_mod_cast h3

theorem ite_abs (q : ℚ) : (if 0 ≤ q then q else -q) = |q| := by
  split
  · rw [abs_of_nonneg (by assumption)]
  · rw [abs_of_neg (by linarith)]

theorem nearest64_none (q : ℚ) : nearest64 q = none ↔ (2 : ℚ) ^ (1024 : Int) - 2 ^ (970 : Int) ≤ |q| := by
  unfold nearest64
  simp only [ite_abs]
  rw [← pow2_eq, ← pow2_eq]
  split
  · simp_all
  · split <;> simp_all

theorem nearest64_some {q x : ℚ} (h : nearest64 q = some x) : IsFloat64 x ∧ ∀ y, IsFloat64 y → |x - q| ≤ |y - q| := by
  unfold nearest64 at h
  simp only [ite_abs] at h
  split at h
  · simp at h
  · rename_i hbig
    split at h
    · rename_i hsmall
      injection h with h
      subst h
      have hu := pow2_pos (-1074)
      constructor
      · refine ⟨roundEven (q / pow2 (-1074)), -1074, roundEven_bound ?_, by omega, by omega, by rw [pow2_eq]⟩
        rw [abs_div, abs_of_pos hu, div_le_iff₀ hu]
        have : (2 ^ 52 : ℚ) * pow2 (-1074) = pow2 (-1022) := by
          rw [show (-1022 : Int) = 52 + -1074 by norm_num, pow2_add, pow2_eq 52]; norm_num
        rw [this]; exact hsmall.le
      · rintro y ⟨n, k, _, hk, _, rfl⟩
        obtain ⟨j, rfl⟩ : ∃ j : Nat, k = -1074 + j := ⟨(k + 1074).toNat, by omega⟩
        have e : (n : ℚ) * 2 ^ (-1074 + (j : Int)) = ((n * 2 ^ j : Int) : ℚ) * pow2 (-1074) := by
          rw [← pow2_eq, pow2_add, pow2_eq (j : Int)]; push_cast; rw [zpow_natCast]; ring
        rw [e]
        exact round_scaled _ _ hu _
    · rename_i hsmall
      injection h with h
      subst h
      constructor
      · rcases le_total 0 q with hq | hq
        · rw [abs_of_nonneg hq] at hbig hsmall
          exact isFloat64_rnd_pos (by linarith) (by linarith)
        · rw [abs_of_nonpos hq] at hbig hsmall
          have := isFloat64_neg (isFloat64_rnd_pos (q := -q) (by linarith) (by linarith))
          rwa [rnd_neg', neg_neg] at this
      · rintro y ⟨n, k, hn, _, _, rfl⟩
        rw [← pow2_eq]
        exact rnd_nearest q n k hn.le

theorem roundEven_tie {q : ℚ} {m : Int} (hm : m ≠ roundEven q) (h : |(m : ℚ) - q| = |(roundEven q : ℚ) - q|) :
    Even (roundEven q) ∧ |roundEven q - m| = 1 := by
  have h1 : (1 : ℚ) ≤ |(m : ℚ) - roundEven q| := by
    have : (1 : Int) ≤ |m - roundEven q| := Int.one_le_abs (by omega)
    exact_mod_cast this
  have h2 := roundEven_err q
  have h3 : |(m : ℚ) - roundEven q| ≤ |(m : ℚ) - q| + |(roundEven q : ℚ) - q| := by
    have := abs_sub_le (m : ℚ) q (roundEven q)
    rwa [abs_sub_comm q] at this
  have h4 : |(roundEven q : ℚ) - q| = 1 / 2 := by linarith
  constructor
  · unfold roundEven at h4 ⊢
    simp only at h4 ⊢
    split
    · rename_i hr
      rw [if_pos hr] at h4
      have : (0 : ℚ) ≤ q - (q.floor : ℚ) := sub_nonneg.mpr (Rat.floor_le q)
      rw [abs_sub_comm, abs_of_nonneg this] at h4
      linarith
    · rename_i hr
      split
      · rename_i hr'
        rw [if_neg hr, if_pos hr'] at h4
        have : q < (q.floor : ℚ) + 1 := by have := Rat.lt_floor_add_one q; push_cast at this; exact this
        push_cast at h4
        rw [abs_of_pos (by linarith)] at h4
        linarith
      · split
        · rename_i h0; exact Int.even_iff.mpr h0
        · rename_i h0; rw [Int.even_iff]; omega
  · have h5 : |(m : ℚ) - roundEven q| = 1 := by linarith
    rw [abs_sub_comm] at h5
    exact_mod_cast h5

theorem scaled_tie {q u : ℚ} (hu : 0 < u) {m : Int} (hm : m ≠ roundEven (q / u))
    (h : |(m : ℚ) * u - q| = |(roundEven (q / u) : ℚ) * u - q|) : Even (roundEven (q / u)) ∧ |roundEven (q / u) - m| = 1 := by
  have key : ∀ m : Int, |(m : ℚ) * u - q| = |(m : ℚ) - q / u| * u := by
    intro m
    rw [← abs_of_pos hu, ← abs_mul, abs_of_pos hu, sub_mul, div_mul_cancel₀ _ hu.ne']
  rw [key, key] at h
  exact roundEven_tie hm (mul_right_cancel₀ hu.ne' h)

theorem evenNeighbour_neg {x y : ℚ} (h : EvenNeighbour x y) : EvenNeighbour (-x) (-y) := by
  obtain ⟨n, m, k, h1, h2, rfl, rfl⟩ := h
  refine ⟨-n, -m, k, h1.neg, ?_, by push_cast; ring, by push_cast; ring⟩
  rw [show -n - -m = -(n - m) by ring, abs_neg, h2]

theorem rnd_tie_pos {x : ℚ} (hx : 0 < x) {n k : Int} (hn : |n| ≤ 2 ^ 53) (hne : (n : ℚ) * pow2 k ≠ rnd x)
    (h : |(n : ℚ) * pow2 k - x| = |rnd x - x|) : EvenNeighbour (rnd x) (n * pow2 k) := by
  rw [rnd_pos_eq hx] at h hne ⊢
  obtain ⟨g1, _⟩ := ilog2_spec x hx
  set L := ilog2 x with hL
  by_cases hk : L - 52 ≤ k
  · obtain ⟨j, rfl⟩ : ∃ j : Nat, k = (L - 52) + j := ⟨(k - (L - 52)).toNat, by omega⟩
    have e : (n : ℚ) * pow2 (L - 52 + j) = ((n * 2 ^ j : Int) : ℚ) * pow2 (L - 52) := by
      rw [pow2_add, pow2_eq (j : Int)]; push_cast; rw [zpow_natCast]; ring
    rw [e] at h hne ⊢
    obtain ⟨a, b⟩ := scaled_tie (pow2_pos _) (fun hc => hne (by rw [hc])) h
    exact ⟨_, _, L - 52, a, b, by rw [pow2_eq], by rw [pow2_eq]⟩
  · have h1 : (n : ℚ) * pow2 k ≤ pow2 L := by
      have a : (n : ℚ) ≤ 2 ^ 53 := by
        have : n ≤ 2 ^ 53 := le_trans (le_abs_self n) hn
        exact_mod_cast this
      have b : pow2 k ≤ pow2 (L - 53) := pow2_mono (by omega)
      have c : pow2 L = 2 ^ 53 * pow2 (L - 53) := by
        rw [show L = 53 + (L - 53) by ring, pow2_add, show 53 + (L - 53) - 53 = L - 53 by ring, pow2_eq 53]; norm_num
      rw [c]
      calc (n : ℚ) * pow2 k ≤ 2 ^ 53 * pow2 k := mul_le_mul_of_nonneg_right a (pow2_pos k).le
        _ ≤ 2 ^ 53 * pow2 (L - 53) := mul_le_mul_of_nonneg_left b (by norm_num)
    have e : pow2 L = ((2 ^ 52 : Int) : ℚ) * pow2 (L - 52) := by
      rw [show L = 52 + (L - 52) by ring, pow2_add, show 52 + (L - 52) - 52 = L - 52 by ring, pow2_eq 52]; norm_num
    have h3 := round_scaled x _ (pow2_pos (L - 52)) (2 ^ 52)
    rw [← e, ← h, abs_of_nonpos (by linarith), abs_of_nonpos (by linarith)] at h3
    have e2 : (n : ℚ) * pow2 k = pow2 L := by linarith
    rw [e2, e] at h hne ⊢
    obtain ⟨a, b⟩ := scaled_tie (pow2_pos _) (fun hc => hne (by rw [hc])) h
    exact ⟨_, _, L - 52, a, b, by rw [pow2_eq], by rw [pow2_eq]⟩

theorem rnd_tie (x : ℚ) {n k : Int} (hn : |n| ≤ 2 ^ 53) (hne : (n : ℚ) * pow2 k ≠ rnd x)
    (h : |(n : ℚ) * pow2 k - x| = |rnd x - x|) : EvenNeighbour (rnd x) (n * pow2 k) := by
  rcases lt_trichotomy x 0 with h0 | h0 | h0
  · have := rnd_tie_pos (x := -x) (by linarith) (n := -n) (k := k) (by rwa [abs_neg])
      (by rw [rnd_neg']; push_cast; intro hc; apply hne; linarith)
      (by
        rw [rnd_neg']
        rw [← abs_neg, ← abs_neg (rnd x - x)] at h
        convert h using 2
        · push_cast; ring
        · ring)
    have := evenNeighbour_neg this
    rw [rnd_neg', neg_neg] at this
    convert this using 1
    push_cast; ring
  · subst h0
    rw [rnd_zero, sub_zero, sub_zero, abs_zero, abs_eq_zero] at h
    rw [rnd_zero] at hne
    exact absurd h hne
  · exact rnd_tie_pos h0 hn hne h

theorem nearest64_tie {q x y : ℚ} (h : nearest64 q = some x) (hy : IsFloat64 y) (hne : y ≠ x) (ht : |y - q| = |x - q|) : EvenNeighbour x y := by
  unfold nearest64 at h
  simp only [ite_abs] at h
  split at h
  · simp at h
  · split at h
    · injection h with h
      subst h
      obtain ⟨n, k, _, hk, _, rfl⟩ := hy
      obtain ⟨j, rfl⟩ : ∃ j : Nat, k = -1074 + j := ⟨(k + 1074).toNat, by omega⟩
      have e : (n : ℚ) * 2 ^ (-1074 + (j : Int)) = ((n * 2 ^ j : Int) : ℚ) * pow2 (-1074) := by
        rw [← pow2_eq, pow2_add, pow2_eq (j : Int)]; push_cast; rw [zpow_natCast]; ring
      rw [e] at ht hne ⊢
      obtain ⟨a, b⟩ := scaled_tie (pow2_pos _) (fun hc => hne (by rw [hc])) ht
      exact ⟨_, _, -1074, a, b, by rw [pow2_eq], by rw [pow2_eq]⟩
    · injection h with h
      subst h
      obtain ⟨n, k, hn, _, _, rfl⟩ := hy
      rw [← pow2_eq] at ht hne ⊢
      exact rnd_tie q hn.le hne ht

theorem isFloat64_nat (n : Nat) (h : n < 2 ^ 53) : IsFloat64 n :=
  ⟨n, 0, by rw [Nat.abs_cast]; exact_mod_cast h, by norm_num, by norm_num, by simp⟩

/-- What is between 0 and a natural number stays there, and is hardly changed. -/
theorem nearest64_between {q : ℚ} {n : Nat} (hn : n < 2 ^ 20) (h0 : 0 ≤ q) (h1 : q ≤ n) :
    ∃ x, nearest64 q = some x ∧ 0 ≤ x ∧ x ≤ n ∧ |x - q| ≤ 1 / 1000000000 := by
  have hq : q ≤ 2 ^ 20 := le_trans h1 (by exact_mod_cast hn.le)
  obtain ⟨x, hx⟩ : ∃ x, nearest64 q = some x := by
    rw [← Option.ne_none_iff_exists']
    intro hc
    have hc := (nearest64_none q).mp hc
    rw [abs_of_nonneg h0, ← pow2_eq, ← pow2_eq] at hc
    have e : pow2 1024 = 2 ^ 54 * pow2 970 := by
      rw [show (1024 : Int) = 54 + 970 by norm_num, pow2_add, pow2_eq 54]; norm_num
    have m : pow2 20 ≤ pow2 970 := pow2_mono (by norm_num)
    have m20 : pow2 20 = 2 ^ 20 := by rw [pow2_eq]; norm_num
    rw [e] at hc
    rw [m20] at m
    norm_num at *
    linarith
  obtain ⟨_, hnear⟩ := nearest64_some hx
  refine ⟨x, hx, ?_, ?_, ?_⟩
  · by_contra hc
    have := hnear 0 (by simpa using isFloat64_nat 0 (by norm_num))
    rw [abs_of_neg (by linarith), zero_sub, abs_neg, abs_of_nonneg h0] at this
    linarith
  · by_contra hc
    have := hnear n (isFloat64_nat n (by omega))
    rw [abs_of_pos (by linarith), abs_of_nonneg (by linarith)] at this
    linarith
  · unfold nearest64 at hx
    simp only [ite_abs] at hx
    split at hx
    · simp at hx
    · split at hx
      · injection hx with hx
        subst hx
        have hu := pow2_pos (-1074)
        have e : (roundEven (q / pow2 (-1074)) : ℚ) * pow2 (-1074) - q = ((roundEven (q / pow2 (-1074)) : ℚ) - q / pow2 (-1074)) * pow2 (-1074) := by
          rw [sub_mul, div_mul_cancel₀ _ hu.ne']
        rw [e, abs_mul, abs_of_pos hu]
        have m : pow2 (-1074) ≤ pow2 (-53) := pow2_mono (by norm_num)
        have e1 := roundEven_err (q / pow2 (-1074))
        have := mul_le_mul_of_nonneg_right e1 hu.le
        rw [pow2_m53] at m
        linarith
      · injection hx with hx
        subst hx
        have := rnd_err q
        rw [abs_of_nonneg h0, pow2_m53] at this
        linarith

/-! ## Times -/

theorem numeral2 {ds : Bytes} {n : Nat} (h : Numeral 2 ds n) :
    ∃ a b, ds = [a, b] ∧ decDigit a = true ∧ decDigit b = true ∧ n = (a - 48).toNat * 10 + (b - 48).toNat := by
  obtain ⟨h1, h2, rfl⟩ := h
  match ds, h1 with
  | [a, b], _ =>
    have ha := h2 a (by simp)
    have hb := h2 b (by simp)
    exact ⟨a, b, rfl, decDigit_iff.mpr ha, decDigit_iff.mpr hb, by rw [digit_sub ha, digit_sub hb]; simp [natOf]⟩

theorem getnum2 {ds : Bytes} {n : Nat} (h : Numeral 2 ds n) (fixed : Bool) (r : Bytes) : getnum fixed (ds ++ r) = some (n, r) := by
  obtain ⟨a, b, rfl, ha, hb, rfl⟩ := numeral2 h
  simp [getnum, ha, hb]

theorem allDigits_eq (ds : Bytes) (h : Digits ds) : ∀ n, allDigits n ds = some (ds.foldl (fun n c => n * 10 + (c.toNat - 48)) n) := by
  induction ds with
  | nil => intro n; rfl
  | cons c r ih =>
    intro n
    have hc := h c (by simp)
    rw [allDigits, if_pos (decDigit_iff.mpr hc), ih (fun x hx => h x (by simp [hx])), digit_sub hc]; rfl

theorem timeAtoi_eq {ds : Bytes} (h : Digits ds) : timeAtoi ds = some (natOf ds : Int) := by
  have key : timeAtoi ds = signed false (allDigits 0 ds) := by
    unfold timeAtoi
    split
    · exact absurd rfl (digits_head h rfl).2
    · exact absurd rfl (digits_head h rfl).1
    · rfl
  rw [key, allDigits_eq ds h]; rfl

theorem longYear_eq {ds : Bytes} {n : Nat} (h : Numeral 4 ds n) (r : Bytes) : longYear (ds ++ r) = some ((n : Int), r) := by
  obtain ⟨h1, h2, rfl⟩ := h
  match ds, h1 with
  | [a, b, c, d], _ =>
    have ha := decDigit_iff.mpr (h2 a (by simp))
    show (if decDigit a then _ else _) = _
    rw [if_pos ha, timeAtoi_eq h2]; rfl

theorem skipChar_eq (p : UInt8) (r : Bytes) : skipChar p (p :: r) = some r := by simp [skipChar]

theorem foldl_scale (l : Bytes) : ∀ n, l.foldl (fun n c => n * 10 + (c.toNat - 48)) n = n * 10 ^ l.length + natOf l := by
  induction l with
  | nil => intro n; simp [natOf]
  | cons c l ih =>
    intro n
    simp only [List.foldl_cons, natOf, List.length_cons]
    rw [ih, ih (0 * 10 + (c.toNat - 48)), pow_succ]; ring

theorem natOf_lt {l : Bytes} (h : Digits l) : natOf l < 10 ^ l.length := by
  induction l with
  | nil => simp [natOf]
  | cons c l ih =>
    have := ih (fun x hx => h x (by simp [hx]))
    have hc : c.toNat ≤ 57 := (h c (by simp)).2
    simp only [natOf, List.foldl_cons, List.length_cons]
    rw [foldl_scale, pow_succ]
    have h9 : (0 * 10 + (c.toNat - 48)) * 10 ^ l.length ≤ 9 * 10 ^ l.length := Nat.mul_le_mul_right _ (by omega)
    omega

theorem nanoseconds_eq {ds : Bytes} (h : Digits ds) : nanoseconds ds = some (natOf ds * 10 ^ 9 / 10 ^ ds.length) := by
  have h1 : Digits (ds.take 9) := fun c hc => h c (List.mem_of_mem_take hc)
  have h2 : Digits (ds.drop 9) := fun c hc => h c (List.mem_of_mem_drop hc)
  rw [nanoseconds, allDigits_eq _ h1, Option.map_some]
  congr 1
  show natOf (ds.take 9) * 10 ^ (9 - (ds.take 9).length) = _
  rcases Nat.le_or_le ds.length 9 with hl | hl
  · rw [List.take_of_length_le hl, eq_comm]
    apply Nat.div_eq_of_eq_mul_left (by positivity)
    rw [Nat.mul_assoc, ← pow_add, Nat.sub_add_cancel hl]
  · have hlen : (ds.take 9).length = 9 := by rw [List.length_take]; omega
    rw [hlen]
    have e : natOf ds = natOf (ds.take 9) * 10 ^ (ds.drop 9).length + natOf (ds.drop 9) := by
      conv_lhs => rw [← List.take_append_drop 9 ds]
      rw [natOf_append, foldl_scale]
    have e2 : 10 ^ ds.length = 10 ^ (ds.drop 9).length * 10 ^ 9 := by
      rw [← pow_add, List.length_drop, Nat.sub_add_cancel hl]
    have := natOf_lt h2
    rw [e2, Nat.mul_div_mul_right _ _ (by positivity), e, Nat.mul_comm (natOf (ds.take 9)) (10 ^ (ds.drop 9).length), Nat.mul_add_div (by positivity),
      Nat.div_eq_of_lt this]
    simp

theorem signText_ne {s : Bytes} {σ : Int} (h : SignText s σ) (hn : s ≠ []) : s = [43] ∧ σ = 1 ∨ s = [45] ∧ σ = -1 := by
  rcases h with ⟨h | h, rfl⟩ | ⟨h, rfl⟩
  · exact absurd h hn
  · exact .inl ⟨h, rfl⟩
  · exact .inr ⟨h, rfl⟩

theorem offset_head {Z : Bytes} {off : Int} (h : OffsetAccepted Z off) : ∀ c, Z.head? = some c → decDigit c = false ∧ c ≠ 46 ∧ c ≠ 44 := by
  intro c hc
  rcases h with ⟨rfl, _⟩ | ⟨sign, σ, H, h, M, m, hn, hs, _, _, rfl, _⟩
  · have : c = 90 := by simpa using hc.symm
    subst this; decide
  · rcases signText_ne hs hn with ⟨rfl, _⟩ | ⟨rfl, _⟩
    · have : c = 43 := by simpa using hc.symm
      subst this; decide
    · have : c = 45 := by simpa using hc.symm
      subst this; decide

theorem takeWhile_dec {ds Z : Bytes} (h : Digits ds) (hz : ∀ c, Z.head? = some c → decDigit c = false) :
    (ds ++ Z).takeWhile decDigit = ds ∧ (ds ++ Z).dropWhile decDigit = Z := by
  induction ds with
  | nil =>
    cases Z with
    | nil => simp
    | cons c Z => simp [hz c rfl]
  | cons c r ih =>
    have hc := decDigit_iff.mpr (h c (by simp))
    have := ih (fun x hx => h x (by simp [hx]))
    simp [hc, this]

theorem fracSeconds_eq {F Z : Bytes} {ns : Nat} {off : Int} (hf : FractionAccepted F ns) (hz : OffsetAccepted Z off) :
    fracSeconds (F ++ Z) = some (ns, Z) := by
  have g := offset_head hz
  rcases hf with ⟨rfl, rfl⟩ | ⟨p, ds, hp, rfl, hn, hd, rfl⟩
  · match Z, g with
    | [], _ => rfl
    | [c], _ => rfl
    | c :: d :: r, g =>
      have := g c rfl
      simp [fracSeconds, this.2.1, this.2.2]
  · match ds, hn with
    | d :: r, _ =>
      have hr : Digits r := fun x hx => hd x (by simp [hx])
      obtain ⟨t1, t2⟩ := takeWhile_dec hr (fun c hc => (g c hc).1)
      have hd0 := decDigit_iff.mpr (hd d (by simp))
      have key : ∀ q : UInt8, q = 46 ∨ q = 44 → fracSeconds (q :: d :: (r ++ Z)) = some (natOf (d :: r) * 10 ^ 9 / 10 ^ (d :: r).length, Z) := by
        intro q hq
        show (if (q = 46 ∨ q = 44) ∧ decDigit d = true then _ else _) = _
        rw [if_pos ⟨hq, hd0⟩, t1, nanoseconds_eq hd, t2]
        rfl
      rcases hp with rfl | rfl
      · exact key 46 (.inl rfl)
      · exact key 44 (.inr rfl)

theorem fracSeconds_some {s r : Bytes} {ns : Nat} (h : fracSeconds s = some (ns, r)) : ∃ F, s = F ++ r ∧ FractionAccepted F ns := by
  unfold fracSeconds at h
  split at h
  · rename_i p d q
    split at h
    · rename_i hc
      have hd : Digits (d :: q.takeWhile decDigit) := by
        intro c hm
        rcases List.mem_cons.mp hm with rfl | hm
        · exact decDigit_iff.mp hc.2
        · exact digits_takeWhile q c hm
      rw [nanoseconds_eq hd] at h
      simp only [Option.map_some, Option.some.injEq, Prod.mk.injEq] at h
      obtain ⟨rfl, rfl⟩ := h
      refine ⟨p :: d :: q.takeWhile decDigit, by simp, .inr ⟨[p], _, ?_, rfl, by simp, hd, rfl⟩⟩
      rcases hc.1 with rfl | rfl
      · exact .inl rfl
      · exact .inr rfl
    · simp only [Option.some.injEq, Prod.mk.injEq] at h
      obtain ⟨rfl, rfl⟩ := h
      exact ⟨[], rfl, .inl ⟨rfl, rfl⟩⟩
  · simp only [Option.some.injEq, Prod.mk.injEq] at h
    obtain ⟨rfl, rfl⟩ := h
    exact ⟨[], rfl, .inl ⟨rfl, rfl⟩⟩

theorem allDigits_some (s : Bytes) : ∀ n v, allDigits n s = some v → Digits s := by
  induction s with
  | nil => intro n v _ c hc; cases hc
  | cons c r ih =>
    intro n v h
    rw [allDigits] at h
    split at h
    · rename_i hc
      intro x hx
      rcases List.mem_cons.mp hx with rfl | hx
      · exact decDigit_iff.mp hc
      · exact ih _ _ h x hx
    · cases h

theorem signed_allDigits {neg : Bool} {s : Bytes} {v : Int} (h : signed neg (allDigits 0 s) = some v) :
    Digits s ∧ v = if neg then -(natOf s : Int) else natOf s := by
  cases ha : allDigits 0 s with
  | none => rw [ha] at h; cases h
  | some n =>
    have hd := allDigits_some s 0 n ha
    rw [allDigits_eq s hd] at h
    exact ⟨hd, (Option.some.inj h).symm⟩

theorem two_length {s : Bytes} {v : Int} (h : TwoAccepted s v) : ∃ a b, s = [a, b] := by
  rcases h with ⟨n, ⟨hl, _, _⟩, _⟩ | ⟨sign, σ, d, n, hn, hs, ⟨hl, _, _⟩, rfl, _⟩
  · match s, hl with
    | [a, b], _ => exact ⟨a, b, rfl⟩
  · match d, hl with
    | [b], _ =>
      rcases signText_ne hs hn with ⟨rfl, _⟩ | ⟨rfl, _⟩ <;> exact ⟨_, b, rfl⟩

theorem timeAtoi_two (a b : UInt8) (v : Int) : timeAtoi [a, b] = some v ↔ TwoAccepted [a, b] v := by
  constructor
  · intro h
    unfold timeAtoi at h
    split at h
    · rename_i r e
      obtain ⟨rfl, rfl⟩ : a = 45 ∧ r = [b] := by simpa [eq_comm] using e
      obtain ⟨hd, rfl⟩ := signed_allDigits h
      exact .inr ⟨[45], -1, [b], natOf [b], by simp, .inr ⟨rfl, rfl⟩, ⟨rfl, hd, rfl⟩, rfl, by simp⟩
    · rename_i r e
      obtain ⟨rfl, rfl⟩ : a = 43 ∧ r = [b] := by simpa [eq_comm] using e
      obtain ⟨hd, rfl⟩ := signed_allDigits h
      exact .inr ⟨[43], 1, [b], natOf [b], by simp, .inl ⟨.inr rfl, rfl⟩, ⟨rfl, hd, rfl⟩, rfl, by simp⟩
    · obtain ⟨hd, rfl⟩ := signed_allDigits h
      exact .inl ⟨_, ⟨rfl, hd, rfl⟩, by simp⟩
  · rintro (⟨n, ⟨_, hd, rfl⟩, rfl⟩ | ⟨sign, σ, d, n, hn, hs, ⟨_, hd, rfl⟩, e, rfl⟩)
    · exact timeAtoi_eq hd
    · rcases signText_ne hs hn with ⟨rfl, rfl⟩ | ⟨rfl, rfl⟩
      · rw [e]
        show signed false (allDigits 0 d) = _
        rw [allDigits_eq d hd]
        simp [signed, natOf]
      · rw [e]
        show signed true (allDigits 0 d) = _
        rw [allDigits_eq d hd]
        simp [signed, natOf]

theorem zoneOffset_eq {Z : Bytes} {off : Int} (hz : OffsetAccepted Z off) : zoneOffset Z = some (off * 60, []) := by
  rcases hz with ⟨rfl, rfl⟩ | ⟨sign, σ, H, h, M, m, hn, hs, hH, hM, rfl, rfl⟩
  · rfl
  · obtain ⟨a, b, rfl⟩ := two_length hH
    obtain ⟨c, d, rfl⟩ := two_length hM
    rcases signText_ne hs hn with ⟨rfl, rfl⟩ | ⟨rfl, rfl⟩
    · show (match timeAtoi [a, b], timeAtoi [c, d] with | some hr, some mm => _ | _, _ => _) = _
      rw [(timeAtoi_two a b h).mpr hH, (timeAtoi_two c d m).mpr hM]
      show some ((h * 60 + m) * 60, []) = some (1 * (h * 60 + m) * 60, [])
      rw [Int.one_mul]
    · show (match timeAtoi [a, b], timeAtoi [c, d] with | some hr, some mm => _ | _, _ => _) = _
      rw [(timeAtoi_two a b h).mpr hH, (timeAtoi_two c d m).mpr hM]
      show some (-((h * 60 + m) * 60), []) = some (-1 * (h * 60 + m) * 60, [])
      congr 2; ring

theorem zoneOffset_some {s : Bytes} {o : Int} (h : zoneOffset s = some (o, [])) : ∃ off, o = off * 60 ∧ OffsetAccepted s off := by
  unfold zoneOffset at h
  split at h
  · simp only [Option.some.injEq, Prod.mk.injEq] at h
    obtain ⟨rfl, rfl⟩ := h
    exact ⟨0, rfl, .inl ⟨rfl, rfl⟩⟩
  · rename_i sign a b c d e r _
    split at h
    · cases h
    · rename_i hc
      split at h
      · rename_i hr mm h1 h2
        have hc : c = 58 := by simpa using hc
        subst hc
        have t1 := (timeAtoi_two _ _ _).mp h1
        have t2 := (timeAtoi_two _ _ _).mp h2
        split at h
        · rename_i hs; subst hs
          simp only [Option.some.injEq, Prod.mk.injEq] at h
          obtain ⟨rfl, rfl⟩ := h
          exact ⟨_, rfl, .inr ⟨[43], 1, [a, b], hr, [d, e], mm, by simp, .inl ⟨.inr rfl, rfl⟩, t1, t2, rfl, by ring⟩⟩
        · split at h
          · rename_i hs; subst hs
            simp only [Option.some.injEq, Prod.mk.injEq] at h
            obtain ⟨rfl, rfl⟩ := h
            exact ⟨-1 * (hr * 60 + mm), by ring, .inr ⟨[45], -1, [a, b], hr, [d, e], mm, by simp, .inr ⟨rfl, rfl⟩, t1, t2, rfl, rfl⟩⟩
          · cases h
      · cases h
  · cases h

theorem longYear_some {s r : Bytes} {y : Int} (h : longYear s = some (y, r)) : ∃ Y n, s = Y ++ r ∧ Numeral 4 Y n ∧ y = n := by
  unfold longYear at h
  split at h
  · rename_i a b c d q
    split at h
    · rename_i ha
      have ha' := decDigit_iff.mp ha
      have key : timeAtoi [a, b, c, d] = signed false (allDigits 0 [a, b, c, d]) := by
        unfold timeAtoi
        split
        · rename_i e; simp only [List.cons.injEq] at e; rw [e.1] at ha'; exact absurd ha'.1 (by decide)
        · rename_i e; simp only [List.cons.injEq] at e; rw [e.1] at ha'; exact absurd ha'.1 (by decide)
        · rfl
      rw [key] at h
      cases hv : signed false (allDigits 0 [a, b, c, d]) with
      | none => rw [hv] at h; cases h
      | some v =>
        rw [hv] at h
        simp only [Option.map_some, Option.some.injEq, Prod.mk.injEq] at h
        obtain ⟨rfl, rfl⟩ := h
        obtain ⟨hd, rfl⟩ := signed_allDigits hv
        exact ⟨[a, b, c, d], _, rfl, ⟨rfl, hd, rfl⟩, by simp⟩
    · cases h
  · cases h

theorem digits_two {c d : UInt8} (hc : decDigit c = true) (hd : decDigit d = true) : Digits [c, d] := by
  intro x hx
  simp only [List.mem_cons, List.not_mem_nil, or_false] at hx
  rcases hx with rfl | rfl
  · exact decDigit_iff.mp hc
  · exact decDigit_iff.mp hd

theorem digits_one {c : UInt8} (hc : decDigit c = true) : Digits [c] := by
  intro x hx
  simp only [List.mem_cons, List.not_mem_nil, or_false] at hx
  subst hx; exact decDigit_iff.mp hc

theorem getnum_some {fixed : Bool} {s r : Bytes} {n : Nat} (h : getnum fixed s = some (n, r)) :
    ∃ N, s = N ++ r ∧ (Numeral 2 N n ∨ fixed = false ∧ Numeral 1 N n) := by
  unfold getnum at h
  split at h
  · rename_i c d q
    split at h
    · cases h
    · rename_i hc
      have hc : decDigit c = true := by simpa using hc
      split at h
      · rename_i hd
        simp only [Option.some.injEq, Prod.mk.injEq] at h
        obtain ⟨rfl, rfl⟩ := h
        refine ⟨[c, d], rfl, .inl ⟨rfl, digits_two hc hd, ?_⟩⟩
        rw [digit_sub (decDigit_iff.mp hc), digit_sub (decDigit_iff.mp hd)]
        simp [natOf]
      · split at h
        · cases h
        · rename_i hf
          simp only [Option.some.injEq, Prod.mk.injEq] at h
          obtain ⟨rfl, rfl⟩ := h
          refine ⟨[c], rfl, .inr ⟨by simpa using hf, rfl, digits_one hc, ?_⟩⟩
          rw [digit_sub (decDigit_iff.mp hc)]
          simp [natOf]
  · rename_i c
    split at h
    · rename_i hc
      simp only [Option.some.injEq, Prod.mk.injEq] at h
      obtain ⟨rfl, rfl⟩ := h
      refine ⟨[c], rfl, .inr ⟨by simpa using hc.2, rfl, digits_one hc.1, ?_⟩⟩
      rw [digit_sub (decDigit_iff.mp hc.1)]
      simp [natOf]
    · cases h
  · cases h

theorem getnum_hour {ds : Bytes} {n : Nat} (h : HourAccepted ds n) (r : Bytes) : getnum false (ds ++ 58 :: r) = some (n, 58 :: r) := by
  rcases h with h | ⟨hl, hd, rfl⟩
  · exact getnum2 h false _
  · match ds, hl with
    | [c], _ =>
      have hc := decDigit_iff.mpr (hd c (by simp))
      have : decDigit 58 = false := by decide
      simp [getnum, hc, this, digit_sub (hd c (by simp)), natOf]

theorem skipChar_some {p : UInt8} {s r : Bytes} (h : skipChar p s = some r) : s = p :: r := by
  unfold skipChar at h
  split at h
  · split at h
    · rename_i e; subst e; rw [Option.some.inj h]
    · cases h
  · cases h

theorem leap_iff (y : Int) : isLeapYear y = true ↔ y % 4 = 0 ∧ (y % 100 ≠ 0 ∨ y % 400 = 0) := by simp [isLeapYear]

theorem daysIn_eq (y mo : Nat) (h1 : 1 ≤ mo) (h2 : mo ≤ 12) : daysIn mo y = (Json.monthLengths y).getD (mo - 1) 0 := by
  by_cases hl : isLeapYear (y : Int) = true
  · have := (leap_iff _).mp hl
    interval_cases mo <;> simp [daysIn, daysBefore, Json.monthLengths, hl, this]
  · have := mt (leap_iff (y : Int)).mpr hl
    interval_cases mo <;> simp [daysIn, daysBefore, Json.monthLengths, hl, this]

theorem yearDays (y : Int) : 146097 * ((y - 1) / 400) + 36524 * ((y - 1) % 400 / 100) + 1461 * ((y - 1) % 400 % 100 / 4) + 365 * ((y - 1) % 400 % 100 % 4)
    = 365 * (y - 1) + (y - 1) / 4 - (y - 1) / 100 + (y - 1) / 400 := by omega

theorem dateDays_eq (y mo d : Nat) (h1 : 1 ≤ mo) (h2 : mo ≤ 12) : dateDays y mo d = Json.dayNumber y mo d := by
  have e := yearDays (y : Int)
  simp only [dateDays, Json.dayNumber]
  rw [e]
  by_cases hl : isLeapYear (y : Int) = true
  · have := (leap_iff _).mp hl
    interval_cases mo <;> simp [daysBefore, Json.monthLengths, hl, this] <;> ring
  · have := mt (leap_iff (y : Int)).mpr hl
    interval_cases mo <;> simp [daysBefore, Json.monthLengths, hl, this] <;> ring

theorem checkedTime_iff (y mo d h mi sec ns : Nat) (off : Int) (t : GoTime) :
    checkedTime y mo d h mi sec ns (off * 60) = some t ↔
      (DateExists y mo d ∧ h ≤ 23 ∧ mi ≤ 59 ∧ sec ≤ 59 ∧ t = instant y mo d h mi sec ns - off * 60 * 1000000000) := by
  rw [checkedTime]
  by_cases hm : 1 ≤ mo ∧ mo ≤ 12
  · obtain ⟨hd1, hd2⟩ := hm
    rw [daysIn_eq y mo hd1 hd2, dateDays_eq y mo d hd1 hd2]
    have e : some (((((Json.dayNumber y mo d - 719162) * 24 + (h : Int)) * 60 + mi) * 60 + sec - off * 60) * 1000000000 + ns)
        = some (instant y mo d h mi sec ns - off * 60 * 1000000000) := by
      simp only [instant, show Json.dayNumber 1970 1 1 = 719162 by decide]
      congr 1
      ring
    rw [e]
    split
    · rename_i hb
      constructor
      · intro h; cases h
      · rintro ⟨⟨_, _, h3, h4⟩, h5, h6, h7, _⟩
        exfalso; omega
    · rename_i hb
      constructor
      · intro h
        exact ⟨⟨hd1, hd2, by omega, by omega⟩, by omega, by omega, by omega, (Option.some.inj h).symm⟩
      · rintro ⟨_, _, _, _, rfl⟩; rfl
  · rw [if_pos (by omega)]
    constructor
    · intro h; cases h
    · rintro ⟨⟨h1, h2, _⟩, _⟩; exact absurd ⟨h1, h2⟩ hm

theorem parseTime_iff {s : Bytes} {t : GoTime} : parseTime s = some t ↔ TimeAccepted s t := by
  constructor
  · intro h
    rw [parseTime] at h
    simp only [Option.bind_eq_bind, Option.bind_eq_some_iff, Prod.exists] at h
    obtain ⟨y, s1, h1, s2, h2, mo, s3, h3, s4, h4, d, s5, h5, s6, h6, hh, s7, h7, s8, h8, mi, s9, h9, s10, h10, sec, s11, h11, ns, s12, h12,
      o, s13, h13, h⟩ := h
    split at h
    · cases h
    · rename_i he
      have he : s13 = [] := by simpa using he
      subst he
      obtain ⟨Y, y', rfl, hY, rfl⟩ := longYear_some h1
      obtain rfl := skipChar_some h2
      obtain ⟨MO, rfl, hMO⟩ := getnum_some h3
      obtain rfl := skipChar_some h4
      obtain ⟨D, rfl, hD⟩ := getnum_some h5
      obtain rfl := skipChar_some h6
      obtain ⟨H, rfl, hH⟩ := getnum_some h7
      obtain rfl := skipChar_some h8
      obtain ⟨MI, rfl, hMI⟩ := getnum_some h9
      obtain rfl := skipChar_some h10
      obtain ⟨S, rfl, hS⟩ := getnum_some h11
      obtain ⟨F, rfl, hF⟩ := fracSeconds_some h12
      obtain ⟨off, rfl, hZ⟩ := zoneOffset_some h13
      obtain ⟨a1, a2, a3, a4, a5⟩ := (checkedTime_iff _ _ _ _ _ _ _ _ _).mp h
      simp only [Bool.true_eq_false, false_and, or_false, true_and] at hMO hD hH hMI hS
      exact ⟨Y, MO, D, H, MI, S, F, s12, y', mo, d, hh, mi, sec, ns, off, by simp, hY, hMO, hD, a1, hH, a2, hMI, a3, hS, a4, hF, hZ, a5⟩
  · rintro ⟨Y, MO, D, H, MI, S, F, Z, y, mo, d, h, mi, sec, ns, off, rfl, hY, hMO, hD, hdate, hH, hh, hMI, hmi, hS, hs, hF, hZ, rfl⟩
    have e : Y ++ go!"-" ++ MO ++ go!"-" ++ D ++ go!"T" ++ H ++ go!":" ++ MI ++ go!":" ++ S ++ F ++ Z =
        Y ++ 45 :: (MO ++ 45 :: (D ++ 84 :: (H ++ 58 :: (MI ++ 58 :: (S ++ (F ++ Z)))))) := by simp
    rw [e, parseTime]
    simp only [longYear_eq hY, skipChar_eq, getnum2 hMO, getnum2 hD, getnum_hour hH, getnum2 hMI, getnum2 hS, fracSeconds_eq hF hZ, zoneOffset_eq hZ,
      Option.bind_eq_bind, Option.bind_some, ne_eq, not_true_eq_false, if_false]
    exact (checkedTime_iff _ _ _ _ _ _ _ _ _).mpr ⟨hdate, hh, hmi, hs, rfl⟩

theorem OffsetText.accepted {Z : Bytes} {off : Int} (h : OffsetText Z off) : OffsetAccepted Z off := by
  rcases h with h | ⟨H, h, M, m, hH, hM, _, _, ⟨rfl, rfl⟩ | ⟨rfl, rfl⟩⟩
  · exact .inl h
  · exact .inr ⟨[43], 1, H, h, M, m, by simp, .inl ⟨.inr rfl, rfl⟩, .inl ⟨h, hH, rfl⟩, .inl ⟨m, hM, rfl⟩, rfl, by ring⟩
  · exact .inr ⟨[45], -1, H, h, M, m, by simp, .inr ⟨rfl, rfl⟩, .inl ⟨h, hH, rfl⟩, .inl ⟨m, hM, rfl⟩, rfl, by ring⟩

theorem Rfc3339.accepted {s : Bytes} {t : GoTime} (h : Rfc3339 s t) : TimeAccepted s t := by
  obtain ⟨Y, MO, D, H, MI, S, F, Z, y, mo, d, h, mi, sec, ns, off, hs, hY, hMO, hD, hdate, hH, hh, hMI, hmi, hS, hs', hF, hZ, ht⟩ := h
  refine ⟨Y, MO, D, H, MI, S, F, Z, y, mo, d, h, mi, sec, ns, off, hs, hY, hMO, hD, hdate, .inl hH, hh, hMI, hmi, hS, hs', ?_, hZ.accepted, ht⟩
  rcases hF with h | ⟨ds, h1, h2⟩
  · exact .inl h
  · exact .inr ⟨_, ds, .inl rfl, h1, h2⟩

theorem parseTime_eq {s : Bytes} {t : GoTime} (h : Rfc3339 s t) : parseTime s = some t := parseTime_iff.mpr h.accepted

end Egts
