import Verif.Spec.Double
import Verif.Proofs.Double
import Verif.Props.Subrecords

/-!
# C112: coordinates that are no numbers

What the Go type `float64` has beyond the numbers of `Model/F64.lean` changes nothing for finite coordinates (`C112_finite`, `C112_read`),
so all other claims about positions hold for them as well. What is not finite is sent like any place on Earth (`C112_false`), and packet-gen
takes it from its command line (`C112_texts`).
-/

namespace Egts

/-- Every finite coordinate, whether subnormal, as large as can be, or zero with a minus sign, is sent as `Model/F64.lean` says. -/
theorem C112_finite (cv : Double → UInt32) (x : ℚ) (hx : IsFloat64 x) :
    encLat64 cv (.num x) = encLat (.ofDouble cv) x ∧ encLon64 cv (.num x) = encLon (.ofDouble cv) x ∧
    encLat64 cv .negZero = encLat (.ofDouble cv) 0 ∧ encLon64 cv .negZero = encLon (.ofDouble cv) 0 := by
  have hl : |x| < pow2 1024 := by
    obtain ⟨n, k, hn, _, hk, e⟩ := hx
    rw [e, ← pow2_eq, abs_mul, abs_of_pos (pow2_pos k)]
    have e1 : pow2 1024 = 9007199254740992 * pow2 971 := by
      rw [show (1024 : Int) = 53 + 971 by norm_num, pow2_add, pow2_eq 53]; norm_num
    have e3 : pow2 k ≤ pow2 971 := pow2_mono hk
    have e4 : |(n : ℚ)| < 9007199254740992 := by exact_mod_cast hn
    rw [e1]
    exact mul_lt_mul e4 e3 (pow2_pos k) (by norm_num)
  refine ⟨coord_finite cv (by norm_num) (by norm_num) hl, coord_finite cv (by norm_num) (by norm_num) hl, ?_, ?_⟩
  · unfold encLat64 encLat
    rw [negZero_div (by norm_num), negZero_mul (by norm_num), zero_div, rnd_zero, zero_mul, rnd_zero, env_small cv (by norm_num)]
    rfl
  · unfold encLon64 encLon
    rw [negZero_div (by norm_num), negZero_mul (by norm_num), zero_div, rnd_zero, zero_mul, rnd_zero, env_small cv (by norm_num)]
    rfl

/-- Whatever is received is read as the finite number of `Model/F64.lean`. -/
theorem C112_read (v : UInt32) : decLat64 v = .num (decLat v) ∧ decLon64 v = .num (decLon v) :=
  ⟨coord_read (by norm_num) (by norm_num) v, coord_read (by norm_num) (by norm_num) v⟩

/-- A whole position with finite coordinates. -/
theorem C112_position (cv : Double → UInt32) (d : SrPosData) (h1 : IsFloat64 d.latitude) (h2 : IsFloat64 d.longitude) :
    d.encode64 cv (.num d.latitude) (.num d.longitude) = d.encode (.ofDouble cv) := by
  unfold SrPosData.encode64 SrPosData.encode
  rw [(C112_finite cv _ h1).1, (C112_finite cv _ h2).2.1]

/-- What is not finite is left to the conversion. -/
theorem C112_not_finite (cv : Double → UInt32) (s : Bool) : encLat64 cv .nan = cv .nan ∧ encLon64 cv .nan = cv .nan ∧
    encLat64 cv (.inf s) = cv (.inf s) ∧ encLon64 cv (.inf s) = cv (.inf s) := by
  refine ⟨rfl, rfl, ?_, ?_⟩
  · unfold encLat64; rw [inf_div _ (by norm_num), inf_mul _ (by norm_num)]; rfl
  · unfold encLon64; rw [inf_div _ (by norm_num), inf_mul _ (by norm_num)]; rfl

/-- Whatever the coordinates are, there is a place on Earth that is sent as the same bytes: so what the program does with them it does for
that place. -/
theorem C112_place (cv : Double → UInt32) (d : SrPosData) (lat lon : Double) : ∃ x y : ℚ, 0 ≤ x ∧ x ≤ 90 ∧ 0 ≤ y ∧ y ≤ 180 ∧
    d.encode64 cv lat lon = ({ d with latitude := x, longitude := y } : SrPosData).encode (.ofDouble cv) := by
  obtain ⟨x, x0, x1, hx⟩ := coord_onto (.ofDouble cv) (c := 90) (by norm_num) (encLat64 cv lat)
  obtain ⟨y, y0, y1, hy⟩ := coord_onto (.ofDouble cv) (c := 180) (by norm_num) (encLon64 cv lon)
  refine ⟨x, y, x0, x1, y0, y1, ?_⟩
  unfold SrPosData.encode64 SrPosData.encode
  rw [← hx, ← hy]
  rfl

/-- Full statement of C112 (not provable): a position with a coordinate that is not finite is refused. It is refused only if its flags are
wrong; otherwise it is sent, and read as a place on Earth with all its other fields. -/
theorem C112_false (cv : Double → UInt32) (d : SrPosData) (h : d.WF) (lat lon : Double) :
    ∃ b q, d.encode64 cv lat lon = .ok b ∧ SrPosData.decode {} b = .ok q ∧
      q.latitude = decLat (encLat64 cv lat) ∧ q.longitude = decLon (encLon64 cv lon) ∧ q.speed = d.speed ∧ q.vld = d.vld ∧
      q.navigationTime = d.navigationTime := by
  obtain ⟨x, x0, x1, hx⟩ := coord_onto (.ofDouble cv) (c := 90) (by norm_num) (encLat64 cv lat)
  obtain ⟨y, y0, y1, hy⟩ := coord_onto (.ofDouble cv) (c := 180) (by norm_num) (encLon64 cv lon)
  have e : d.encode64 cv lat lon = ({ d with latitude := x, longitude := y } : SrPosData).encode (.ofDouble cv) := by
    unfold SrPosData.encode64 SrPosData.encode
    rw [← hx, ← hy]
    rfl
  obtain ⟨b, e1, e2⟩ := pos_rt (.ofDouble cv) { d with latitude := x, longitude := y } {} h
  refine ⟨b, _, e.trans e1, e2, ?_, ?_, rfl, rfl, rfl⟩
  · rw [← hx]; rfl
  · rw [← hy]; rfl

/-! ## Texts -/

theorem lower_iff {c l : UInt8} (h0 : 97 ≤ l) (h1 : l ≤ 122) : asciiLower c = l ↔ c = l ∨ c + 32 = l := by
  unfold asciiLower
  constructor
  · intro h
    split at h
    · exact .inr h
    · exact .inl h
  · rintro (rfl | rfl)
    · rw [if_neg]
      rintro ⟨_, h⟩
      exact absurd (UInt8.le_trans h0 h) (by decide)
    · split
      · rfl
      · rename_i h
        exfalso
        apply h
        rw [UInt8.le_iff_toNat_le] at h0 h1 ⊢
        rw [UInt8.le_iff_toNat_le]
        have hc := c.toNat_lt
        rw [UInt8.toNat_add] at h0 h1
        simp only [UInt8.reduceToNat] at h0 h1 ⊢
        omega

theorem sameLetters_iff {s t : Bytes} (ht : ∀ l ∈ t, 97 ≤ l ∧ l ≤ 122) : SameLetters s t ↔ s.map asciiLower = t := by
  unfold SameLetters
  induction t generalizing s with
  | nil => simp
  | cons l t ih =>
    cases s with
    | nil => simp
    | cons c s =>
      obtain ⟨h0, h1⟩ := ht l (List.mem_cons_self ..)
      rw [List.forall₂_cons, List.map_cons, List.cons.injEq, ih (fun x hx => ht x (List.mem_cons_of_mem _ hx)), lower_iff h0 h1]

theorem inf_iff {s : Bytes} : SameLetters s (go!"inf") ↔ s.map asciiLower = go!"inf" := sameLetters_iff (by decide)
theorem infinity_iff {s : Bytes} : SameLetters s (go!"infinity") ↔ s.map asciiLower = go!"infinity" := sameLetters_iff (by decide)
theorem nan_iff {s : Bytes} : SameLetters s (go!"nan") ↔ s.map asciiLower = go!"nan" := sameLetters_iff (by decide)

theorem letters_length {s t : Bytes} (h : SameLetters s t) : s.length = t.length := List.Forall₂.length_eq h

theorem specialInf_iff (neg : Bool) (k : Nat) (s : Bytes) (x : Double) :
    specialInf neg k s = some (x, k + s.length) ↔ x = .inf neg ∧ InfText s := by
  have hle := commonPrefixLen_le s (go!"infinity")
  have hf := commonPrefixLen_full s (go!"infinity")
  unfold specialInf
  simp only
  generalize hcn : commonPrefixLen s (go!"infinity") = n at hle hf
  constructor
  · intro h
    by_cases hc : 3 < n ∧ n < 8
    · rw [if_pos hc, if_pos (.inl rfl)] at h
      have h2 := congrArg Prod.snd (Option.some.inj h)
      have h2 : k + 3 = k + s.length := h2
      omega
    · rw [if_neg hc] at h
      by_cases hn : n = 3 ∨ n = 8
      · rw [if_pos hn] at h
        have h1 : Double.inf neg = x := congrArg Prod.fst (Option.some.inj h)
        have h2 : k + n = k + s.length := congrArg Prod.snd (Option.some.inj h)
        have h3 : n = s.length := by omega
        have h4 := hf.mp h3
        refine ⟨h1.symm, ?_⟩
        rw [← h3] at h4
        rcases hn with rfl | rfl
        · exact .inl (inf_iff.mpr h4)
        · exact .inr (infinity_iff.mpr h4)
      · rw [if_neg hn] at h; cases h
  · rintro ⟨rfl, h⟩
    have hn : n = s.length ∧ (s.length = 3 ∨ s.length = 8) := by
      rcases h with h | h
      · have l := letters_length h
        refine ⟨hf.mpr ?_, .inl l⟩
        rw [l]; exact inf_iff.mp h
      · have l := letters_length h
        refine ⟨hf.mpr ?_, .inr l⟩
        rw [l]; exact infinity_iff.mp h
    obtain ⟨rfl, hs⟩ := hn
    have hc : ¬(3 < s.length ∧ s.length < 8) := by rcases hs with h | h <;> rw [h] <;> decide
    rw [if_neg hc, if_pos hs]

theorem lower_cases {c : UInt8} {l : UInt8} (h : asciiLower c = l) : c = l ∨ c = l - 32 := by
  unfold asciiLower at h
  split at h
  · right
    rw [← h]
    simp
  · exact .inl h

theorem head_letters {c : UInt8} {r t : Bytes} {l : UInt8} (h : SameLetters (c :: r) (l :: t)) : c = l ∨ c = l - 32 := by
  unfold SameLetters at h
  rw [List.forall₂_cons] at h
  rcases h.1 with h | h
  · exact .inl h
  · right; rw [← h]; simp

theorem infText_head {c : UInt8} {r : Bytes} (h : InfText (c :: r)) : c = 105 ∨ c = 73 := by
  rcases h with h | h <;> exact head_letters h

theorem special_iff (c : UInt8) (r : Bytes) (x : Double) : special (c :: r) = some (x, r.length + 1) ↔
    c = 43 ∧ x = .inf false ∧ InfText r ∨ c = 45 ∧ x = .inf true ∧ InfText r ∨ x = .inf false ∧ InfText (c :: r) ∨
    x = .nan ∧ SameLetters (c :: r) (go!"nan") := by
  have hi : InfText (c :: r) → c = 105 ∨ c = 73 := infText_head
  have hn : SameLetters (c :: r) (go!"nan") → c = 110 ∨ c = 78 := head_letters
  have key : ∀ a b d e : UInt8, (c = a ∨ c = b) → (c = d ∨ c = e) → a ≠ d → a ≠ e → b ≠ d → b ≠ e → False := by
    rintro a b d e (rfl | rfl) (rfl | rfl) h1 h2 h3 h4 <;> contradiction
  unfold special
  simp only
  by_cases h1 : c = 43
  · rw [if_pos h1, Nat.add_comm, specialInf_iff]
    constructor
    · exact fun h => .inl ⟨h1, h⟩
    · rintro (h | h | h | h)
      · exact h.2
      · exact absurd (h1.symm.trans h.1) (by decide)
      · exact (key 43 43 105 73 (.inl h1) (hi h.2) (by decide) (by decide) (by decide) (by decide)).elim
      · exact (key 43 43 110 78 (.inl h1) (hn h.2) (by decide) (by decide) (by decide) (by decide)).elim
  · rw [if_neg h1]
    by_cases h2 : c = 45
    · rw [if_pos h2, Nat.add_comm, specialInf_iff]
      constructor
      · exact fun h => .inr (.inl ⟨h2, h⟩)
      · rintro (h | h | h | h)
        · exact absurd h.1 h1
        · exact h.2
        · exact (key 45 45 105 73 (.inl h2) (hi h.2) (by decide) (by decide) (by decide) (by decide)).elim
        · exact (key 45 45 110 78 (.inl h2) (hn h.2) (by decide) (by decide) (by decide) (by decide)).elim
    · rw [if_neg h2]
      by_cases h3 : c = 105 ∨ c = 73
      · have := specialInf_iff false 0 (c :: r) x
        rw [Nat.zero_add, List.length_cons] at this
        rw [if_pos h3, this]
        constructor
        · exact fun h => .inr (.inr (.inl h))
        · rintro (h | h | h | h)
          · exact absurd h.1 h1
          · exact absurd h.1 h2
          · exact h
          · exact (key 105 73 110 78 h3 (hn h.2) (by decide) (by decide) (by decide) (by decide)).elim
      · rw [if_neg h3]
        have hf := commonPrefixLen_full (c :: r) (go!"nan")
        by_cases h4 : c = 110 ∨ c = 78
        · rw [if_pos h4]
          constructor
          · intro h
            split at h
            · rename_i h5
              have e1 : Double.nan = x := congrArg Prod.fst (Option.some.inj h)
              have e2 : 3 = r.length + 1 := congrArg Prod.snd (Option.some.inj h)
              have := hf.mp (by rw [h5, List.length_cons]; exact e2)
              rw [List.length_cons, ← e2] at this
              exact .inr (.inr (.inr ⟨e1.symm, nan_iff.mpr this⟩))
            · cases h
          · rintro (h | h | h | h)
            · exact absurd h.1 h1
            · exact absurd h.1 h2
            · exact absurd (hi h.2) h3
            · have l : r.length + 1 = 3 := letters_length h.2
              rw [if_pos]
              · rw [h.1, l]
              · have := hf.mpr (by rw [List.length_cons, l]; exact nan_iff.mp h.2)
                rw [this, List.length_cons, l]
        · rw [if_neg h4]
          constructor
          · intro h; cases h
          · rintro (h | h | h | h)
            · exact absurd h.1 h1
            · exact absurd h.1 h2
            · exact absurd (hi h.2) h3
            · exact absurd (hn h.2) h4

theorem parse_special (other : Bytes → Option F64) (s : Bytes) (x : Double) (hx : x = .nan ∨ ∃ n, x = .inf n) :
    parseDouble other s = some x ↔ special s = some (x, s.length) := by
  unfold parseDouble
  cases hs : special s with
  | some y =>
    obtain ⟨y, n⟩ := y
    simp only
    constructor
    · intro h
      split at h
      · rename_i hn
        rw [Option.some.inj h, hn]
      · cases h
    · intro h
      have e1 : y = x := congrArg Prod.fst (Option.some.inj h)
      have e2 : n = s.length := congrArg Prod.snd (Option.some.inj h)
      rw [if_pos e2, e1]
  | none =>
    simp only
    constructor
    · intro h
      cases hp : parseFloat other s with
      | none => rw [hp] at h; cases h
      | some q =>
        rw [hp] at h
        have h : (if q = 0 then Double.zero (s.head? = some 45) else .num q) = x := Option.some.inj h
        unfold Double.zero at h
        rcases hx with rfl | ⟨n, rfl⟩ <;> split at h <;> (try split at h) <;> cases h
    · intro h; cases h

/-- Which texts on the command line are taken for what is not finite: `nan`, and `inf` and `infinity` with or without a sign, in any
letters. -/
theorem C112_texts (other : Bytes → Option F64) (s : Bytes) :
    (parseDouble other s = some .nan ↔ SameLetters s (go!"nan")) ∧
    (parseDouble other s = some (.inf true) ↔ ∃ r, s = go!"-" ++ r ∧ InfText r) ∧
    (parseDouble other s = some (.inf false) ↔ ∃ r, (s = r ∨ s = go!"+" ++ r) ∧ InfText r) := by
  rw [parse_special other s _ (.inl rfl), parse_special other s _ (.inr ⟨_, rfl⟩), parse_special other s _ (.inr ⟨_, rfl⟩)]
  cases s with
  | nil =>
    refine ⟨⟨fun h => (by cases h), fun h => (by cases h)⟩, ⟨fun h => (by cases h), ?_⟩, ⟨fun h => (by cases h), ?_⟩⟩
    · rintro ⟨r, h, _⟩; cases h
    · rintro ⟨r, rfl | h, h'⟩
      · rcases h' with h' | h' <;> cases h'
      · cases h
  | cons c r =>
    rw [List.length_cons, special_iff, special_iff, special_iff]
    refine ⟨⟨?_, fun h => .inr (.inr (.inr ⟨rfl, h⟩))⟩, ⟨?_, ?_⟩, ⟨?_, ?_⟩⟩
    · rintro (⟨_, h, _⟩ | ⟨_, h, _⟩ | ⟨h, _⟩ | h)
      · cases h
      · cases h
      · cases h
      · exact h.2
    · rintro (⟨_, h, _⟩ | ⟨rfl, _, h⟩ | ⟨h, _⟩ | ⟨h, _⟩)
      · cases h
      · exact ⟨r, rfl, h⟩
      · cases h
      · cases h
    · rintro ⟨r', h, h'⟩
      cases h
      exact .inr (.inl ⟨rfl, rfl, h'⟩)
    · rintro (⟨rfl, _, h⟩ | ⟨_, h, _⟩ | ⟨_, h⟩ | ⟨h, _⟩)
      · exact ⟨r, .inr rfl, h⟩
      · cases h
      · exact ⟨_, .inl rfl, h⟩
      · cases h
    · rintro ⟨r', rfl | h, h'⟩
      · exact .inr (.inr (.inl ⟨rfl, h'⟩))
      · cases h
        exact .inl ⟨rfl, rfl, h'⟩

/-- A decimal number is taken as the finite number of `C84_numbers`; if that is zero, a minus sign is kept. -/
theorem C112_decimal (other : Bytes → Option F64) (s : Bytes) (q : ℚ) (e : Int) (h : DecimalNumber s q e) :
    (parseFloat other s = none → parseDouble other s = none) ∧
    (∀ x, parseFloat other s = some x → x ≠ 0 → parseDouble other s = some (.num x)) ∧
    (parseFloat other s = some 0 → parseDouble other s = some (if s.head? = some 45 then .negZero else .num 0)) := by
  have hall := List.all_eq_true.mp (floatChar_number h)
  have no : ∀ l ∈ s, l ≠ 105 ∧ l ≠ 73 ∧ l ≠ 110 ∧ l ≠ 78 := by
    intro l hl
    have := hall l hl
    refine ⟨?_, ?_, ?_, ?_⟩ <;> (rintro rfl; exact absurd this (by decide))
  have pre : ∀ t : Bytes, (∀ l ∈ t, l ∈ s) → commonPrefixLen t (go!"infinity") = 0 := by
    intro t ht
    cases t with
    | nil => rfl
    | cons c t =>
      unfold commonPrefixLen
      rw [if_neg]
      intro hc
      rcases lower_cases hc with h | h
      · exact (no c (ht c (List.mem_cons_self ..))).1 h
      · exact (no c (ht c (List.mem_cons_self ..))).2.1 h
  have hs : special s = none := by
    cases s with
    | nil => rfl
    | cons c r =>
      have n := no c (List.mem_cons_self ..)
      unfold special specialInf
      simp only [pre r (fun l hl => List.mem_cons_of_mem _ hl), n.1, n.2.1, n.2.2.1, n.2.2.2]
      simp
  unfold parseDouble
  rw [hs]
  refine ⟨fun h => by rw [h]; rfl, fun x h hx => by rw [h]; simp [hx], fun h => ?_⟩
  rw [h]
  simp only [Option.map_some, if_true, Double.zero, decide_eq_true_eq]

/-- The smallest number above zero, a number with a sign, and the largest number. -/
example : IsFloat64 (2 ^ (-1074 : Int)) ∧ IsFloat64 (-1 / 2) ∧ IsFloat64 ((2 ^ 53 - 1) * 2 ^ (971 : Int)) :=
  ⟨⟨1, -1074, by norm_num, by norm_num, by norm_num, by simp⟩, ⟨-1, -1, by norm_num, by norm_num, by norm_num, by norm_num⟩,
    ⟨2 ^ 53 - 1, 971, by norm_num, by norm_num, by norm_num, by congr 1; norm_num⟩⟩

example : parseDouble (fun _ => none) (go!"NaN") = some .nan ∧ parseDouble (fun _ => none) (go!"-Infinity") = some (.inf true) ∧
    parseDouble (fun _ => none) (go!"+inf") = some (.inf false) ∧ parseDouble (fun _ => none) (go!"infin") = none ∧
    parseDouble (fun _ => none) (go!"-nan") = none := by
  refine ⟨by with_unfolding_all rfl, by with_unfolding_all rfl, by with_unfolding_all rfl, by with_unfolding_all rfl, by decide +kernel⟩

/-- A machine that makes 0x80000000 of what does not fit sends what is not a number as 45 degrees. -/
example : encLat64 (fun _ => 0x80000000) .nan = 0x80000000 ∧ posExample.WF := ⟨rfl, posExample_wf⟩

end Egts
