import Verif.Spec.Cli
import Mathlib.Tactic.Ring

/-! # Lemmas about the numbers on command lines -/

namespace Egts

set_option maxRecDepth 20000 in
theorem digitVal_table : ∀ (c : Fin 256) (d : Fin 36), digitVal (UInt8.ofNat c) = some d.val ↔
    (d.val < 10 ∧ (UInt8.ofNat c).toNat = 48 + d ∨ 10 ≤ d.val ∧ ((UInt8.ofNat c).toNat = 87 + d ∨ (UInt8.ofNat c).toNat = 55 + d)) := by
  decide +kernel

theorem u8_fin (c : UInt8) : c = UInt8.ofNat (⟨c.toNat, c.toNat_lt⟩ : Fin 256) := by simp

theorem digitVal_iff (c : UInt8) (base d : Nat) (hb : base ≤ 36) : (digitVal c = some d ∧ d < base) ↔ DigitOf base c d := by
  unfold DigitOf
  by_cases hd : d < base
  · have := digitVal_table ⟨c.toNat, c.toNat_lt⟩ ⟨d, by omega⟩
    rw [← u8_fin] at this
    simp only [hd, and_true, true_and]
    exact this
  · simp [hd]

/-- The flag for hexadecimal digits fits the base. -/
def HexFits (base : Nat) (hex : Bool) : Prop := 0 < base ∧ (base ≤ 10 ∨ base ≤ 16 ∧ hex = true)

theorem digit_ne (base : Nat) (c : UInt8) (d : Nat) (h : DigitOf base c d) (hb : base ≤ 16) : c ≠ 95 := by
  rintro rfl
  have : (95 : UInt8).toNat = 95 := rfl
  obtain ⟨h1, h2⟩ := h
  rw [this] at h2
  omega

theorem lower_hex : ∀ c : Fin 256, (97 ≤ c.val ∧ c.val ≤ 102 ∨ 65 ≤ c.val ∧ c.val ≤ 70) →
    97 ≤ lowerByte (UInt8.ofNat c) ∧ lowerByte (UInt8.ofNat c) ≤ 102 := by decide +kernel

theorem underscoreLoop_digit {base : Nat} {hex : Bool} (hf : HexFits base hex) {c : UInt8} {d : Nat} (h : DigitOf base c d) (saw : Saw) (r : Bytes) :
    underscoreLoop hex saw (c :: r) = underscoreLoop hex .digit r := by
  rw [underscoreLoop, if_pos]
  obtain ⟨h1, h2⟩ := h
  obtain ⟨_, h3⟩ := hf
  rcases h2 with ⟨h4, h5⟩ | ⟨h4, h5⟩
  · left
    rw [UInt8.le_iff_toNat_le, UInt8.le_iff_toNat_le, h5]
    show 48 ≤ 48 + d ∧ 48 + d ≤ 57
    omega
  · right
    rcases h3 with h3 | ⟨h3, h6⟩
    · omega
    · have := lower_hex ⟨c.toNat, c.toNat_lt⟩ (by simp only; omega)
      rw [← u8_fin] at this
      exact ⟨h6, this⟩

theorem uintLoop_digit {base : Nat} (hb : base ≤ 16) {c : UInt8} {d : Nat} (h : DigitOf base c d) (n : Nat) (r : Bytes) :
    uintLoop base n (c :: r) = if 2 ^ 64 ≤ n * base + d then none else uintLoop base (n * base + d) r := by
  obtain ⟨h1, h2⟩ := (digitVal_iff c base d (by omega)).mpr h
  rw [uintLoop, if_neg (digit_ne base c d h hb), h1]
  simp only
  rw [if_neg (by omega)]

theorem uintLoop_nodigit {base : Nat} (hb : base ≤ 16) {c : UInt8} (hc : c ≠ 95) (h : ¬ ∃ d, DigitOf base c d) (n : Nat) (r : Bytes) :
    uintLoop base n (c :: r) = none := by
  rw [uintLoop, if_neg hc]
  cases hd : digitVal c with
  | none => rfl
  | some d =>
    simp only
    rw [if_pos]
    by_contra hx
    exact h ⟨d, (digitVal_iff c base d (by omega)).mp ⟨hd, by omega⟩⟩

theorem Grouped.le {base : Nat} (hb : 0 < base) {n m : Nat} {r : Bytes} (h : Grouped base n r m) : n ≤ m := by
  induction h with
  | nil => exact Nat.le_refl _
  | digit n c d r m hd hr ih => have := Nat.le_mul_of_pos_right n hb; omega
  | sep n c d r m hd hr ih => have := Nat.le_mul_of_pos_right n hb; omega

/-- A first digit. -/
theorem Grouped.cons_iff {base : Nat} {n m : Nat} {c : UInt8} {r : Bytes} (hc : c ≠ 95) :
    Grouped base n (c :: r) m ↔ ∃ d, DigitOf base c d ∧ Grouped base (n * base + d) r m := by
  constructor
  · intro h
    cases h with
    | digit _ _ d _ _ hd hr => exact ⟨d, hd, hr⟩
    | sep => exact absurd rfl hc
  · rintro ⟨d, hd, hr⟩
    exact .digit n c d r m hd hr

theorem DigitOf.unique {base : Nat} {c : UInt8} {d e : Nat} (hb : base ≤ 16) (h : DigitOf base c d) (h' : DigitOf base c e) : d = e := by
  unfold DigitOf at h h'
  omega

theorem grouped_iff {base : Nat} {hex : Bool} (hf : HexFits base hex) : ∀ (k : Nat) (r : Bytes) (n m : Nat), r.length ≤ k → n < 2 ^ 64 →
    ((uintLoop base n r = some m ∧ underscoreLoop hex .digit r = true) ↔ (Grouped base n r m ∧ m < 2 ^ 64))
  | _, [], n, m, _, hn => by
    simp only [uintLoop, underscoreLoop, Option.some.injEq]
    constructor
    · rintro ⟨rfl, _⟩; exact ⟨.nil _, hn⟩
    · rintro ⟨h, _⟩; cases h; exact ⟨rfl, rfl⟩
  | 0, _ :: _, _, _, hk, _ => by simp at hk
  | k + 1, c :: r, n, m, hk, hn => by
    have hb : base ≤ 16 := by have := hf.2; omega
    simp only [List.length_cons, Nat.add_le_add_iff_right] at hk
    -- a digit, then the rest
    have step : ∀ (c : UInt8) (r : Bytes) (saw : Saw), c ≠ 95 → r.length ≤ k →
        ((uintLoop base n (c :: r) = some m ∧ underscoreLoop hex saw (c :: r) = true) ↔ (Grouped base n (c :: r) m ∧ m < 2 ^ 64)) := by
      intro c r saw hc hk
      rw [Grouped.cons_iff hc]
      by_cases hd : ∃ d, DigitOf base c d
      · obtain ⟨d, hd⟩ := hd
        rw [uintLoop_digit hb hd, underscoreLoop_digit hf hd]
        have hu : (∃ d, DigitOf base c d ∧ Grouped base (n * base + d) r m) ↔ Grouped base (n * base + d) r m :=
          ⟨fun ⟨e, he, hr⟩ => by rwa [hd.unique hb he], fun hr => ⟨d, hd, hr⟩⟩
        rw [hu]
        by_cases hr : 2 ^ 64 ≤ n * base + d
        · rw [if_pos hr]
          constructor
          · rintro ⟨h, _⟩; cases h
          · rintro ⟨h, h'⟩
            have := h.le hf.1
            omega
        · rw [if_neg hr]
          exact grouped_iff hf k r _ m hk (by omega)
      · rw [uintLoop_nodigit hb hc hd]
        constructor
        · rintro ⟨h, _⟩; cases h
        · rintro ⟨⟨d, h, _⟩, _⟩; exact absurd ⟨d, h⟩ hd
    by_cases hc : c = 95
    · subst hc
      have e1 : uintLoop base n (95 :: r) = uintLoop base n r := by rw [uintLoop, if_pos rfl]
      have e2 : underscoreLoop hex .digit (95 :: r) = underscoreLoop hex .underscore r := by
        rw [underscoreLoop, if_neg, if_pos rfl, if_pos rfl]
        rintro (h | ⟨_, h⟩) <;> revert h <;> decide
      rw [e1, e2]
      cases r with
      | nil =>
        constructor
        · rintro ⟨_, h⟩; simp [underscoreLoop] at h
        · rintro ⟨h, _⟩
          cases h with
          | digit _ _ d _ _ hd _ => exact absurd rfl (digit_ne base 95 d hd hb)
      | cons c r =>
        by_cases hc : c = 95
        · subst hc
          constructor
          · rintro ⟨_, h⟩
            rw [underscoreLoop, if_neg, if_pos rfl, if_neg (by decide)] at h
            · cases h
            · rintro (h | ⟨_, h⟩) <;> revert h <;> decide
          · rintro ⟨h, _⟩
            cases h with
            | digit _ _ d _ _ hd _ => exact absurd rfl (digit_ne base 95 d hd hb)
            | sep _ _ d _ _ hd _ => exact absurd rfl (digit_ne base 95 d hd hb)
        · rw [step c r .underscore hc (by simp at hk; omega), Grouped.cons_iff hc]
          constructor
          · rintro ⟨⟨d, hd, hr⟩, h⟩; exact ⟨.sep n c d r m hd hr, h⟩
          · rintro ⟨h, hm⟩
            cases h with
            | digit _ _ d _ _ hd _ => exact absurd rfl (digit_ne base 95 d hd hb)
            | sep _ _ d _ _ hd hr => exact ⟨⟨d, hd, hr⟩, hm⟩
    · exact step c r .digit hc hk

/-- Without underscores they are in order. -/
theorem underscoreLoop_none (hex : Bool) : ∀ (r : Bytes) (saw : Saw), saw ≠ .underscore → 95 ∉ r → underscoreLoop hex saw r = true
  | [], saw, h, _ => by simp [underscoreLoop, h]
  | c :: r, saw, h, hr => by
    simp only [List.mem_cons, not_or] at hr
    rw [underscoreLoop]
    split
    · exact underscoreLoop_none hex r _ (by simp) hr.2
    · rw [if_neg (Ne.symm hr.1)]
      exact underscoreLoop_none hex r _ (by simp) hr.2

theorem parseUint0_eq (s : Bytes) (n : Nat) : parseUint0 s = some n ↔
    s ≠ [] ∧ uintLoop (uintBase s).1 0 (uintBase s).2 = some n ∧ underscoreOK s = true := by
  unfold parseUint0
  by_cases hs : s = []
  · simp [hs]
  rw [if_neg hs]
  have hu : 95 ∉ s → underscoreOK s = true := by
    intro h
    unfold underscoreOK
    split
    · simp only [List.mem_cons, not_or] at h
      split
      · exact underscoreLoop_none _ _ _ (by simp) h.2.2
      · exact underscoreLoop_none _ _ _ (by simp) (by simp [h])
    · exact underscoreLoop_none _ _ _ (by simp) h
  cases hl : uintLoop (uintBase s).1 0 (uintBase s).2 with
  | none => simp
  | some m =>
    by_cases ho : underscoreOK s = true
    · simp [ho, hs]
    · have : 95 ∈ s := by by_contra h; exact ho (hu h)
      simp [ho, this]

theorem lower_letters : ∀ c : Fin 256,
    (lowerByte (UInt8.ofNat c) = 98 ↔ UInt8.ofNat c = 98 ∨ UInt8.ofNat c = 66) ∧
    (lowerByte (UInt8.ofNat c) = 111 ↔ UInt8.ofNat c = 111 ∨ UInt8.ofNat c = 79) ∧
    (lowerByte (UInt8.ofNat c) = 120 ↔ UInt8.ofNat c = 120 ∨ UInt8.ofNat c = 88) := by decide +kernel

theorem lower_letter (c : UInt8) : (lowerByte c = 98 ↔ c = 98 ∨ c = 66) ∧ (lowerByte c = 111 ↔ c = 111 ∨ c = 79) ∧
    (lowerByte c = 120 ↔ c = 120 ∨ c = 88) := by
  have := lower_letters ⟨c.toNat, c.toNat_lt⟩
  rwa [← u8_fin] at this

theorem zero_digit : DigitOf 8 48 0 := ⟨by decide, .inl ⟨by decide, rfl⟩⟩

theorem u8_num (c : UInt8) (n : Nat) (hn : n < 256) : c = UInt8.ofNat n ↔ c.toNat = n := by
  rw [← UInt8.toNat_inj, UInt8.toNat_ofNat', Nat.mod_eq_of_lt hn]

theorem parseUint0_iff (s : Bytes) (n : Nat) : parseUint0 s = some n ↔ GoNat s n ∧ n < 2 ^ 64 := by
  rw [parseUint0_eq]
  cases s with
  | nil =>
    constructor
    · rintro ⟨h, _⟩; exact absurd rfl h
    · rintro ⟨⟨c, d, r, h, _⟩ | ⟨r, h, _⟩ | ⟨r, _, (⟨h | h, _⟩ | ⟨h | h, _⟩ | ⟨h | h, _⟩)⟩, _⟩ <;> cases h
  | cons c r =>
    simp only [ne_eq, List.cons_ne_nil, not_false_eq_true, true_and]
    by_cases h0 : c = 48
    · subst h0
      -- octal
      have oct : uintBase (48 :: r) = (8, r) → underscoreOK (48 :: r) = underscoreLoop false .start (48 :: r) →
          (∀ p t, r = p :: t → t ≠ [] → p ≠ 98 ∧ p ≠ 66 ∧ p ≠ 111 ∧ p ≠ 79 ∧ p ≠ 120 ∧ p ≠ 88) →
          (uintLoop (uintBase (48 :: r)).1 0 (uintBase (48 :: r)).2 = some n ∧ underscoreOK (48 :: r) = true ↔ GoNat (48 :: r) n ∧ n < 2 ^ 64) := by
        intro e1 e2 e3
        rw [e1, e2, underscoreLoop_digit (base := 8) ⟨by decide, .inl (by decide)⟩ zero_digit,
          grouped_iff (base := 8) (hex := false) ⟨by decide, .inl (by decide)⟩ r.length r 0 n (Nat.le_refl _) (by decide)]
        constructor
        · rintro ⟨h, hn⟩; exact ⟨.inr (.inl ⟨r, rfl, h⟩), hn⟩
        · rintro ⟨⟨c, d, r', h, hd, h1, _⟩ | ⟨r', h, h1⟩ | ⟨r', hr, h⟩, hn⟩
          · simp only [List.cons.injEq] at h
            obtain ⟨rfl, rfl⟩ := h
            have : (48 : UInt8).toNat = 48 := rfl
            unfold DigitOf at hd
            rw [this] at hd
            omega
          · simp only [List.cons_append, List.nil_append, List.cons.injEq, true_and] at h
            subst h
            exact ⟨h1, hn⟩
          · exfalso
            rcases h with ⟨h | h, _⟩ | ⟨h | h, _⟩ | ⟨h | h, _⟩ <;>
              (simp only [List.cons_append, List.nil_append, List.cons.injEq, true_and] at h
               have := e3 _ _ h hr
               simp at this)
      cases r with
      | nil => exact oct rfl rfl (by simp)
      | cons p t =>
        obtain ⟨lb, lo, lx⟩ := lower_letter p
        by_cases hp : (p = 98 ∨ p = 66) ∨ (p = 111 ∨ p = 79) ∨ p = 120 ∨ p = 88
        · have hu : underscoreOK (48 :: p :: t) = underscoreLoop (lowerByte p = 120) .digit t := by
            show (if _ then _ else _) = _
            rw [if_pos (by rw [lb, lo, lx]; exact hp)]
          have nodig : ∀ base d, base ≤ 10 → ¬ DigitOf base p d := by
            intro base d hb hd
            have h5 : p.toNat = 98 ∨ p.toNat = 66 ∨ p.toNat = 111 ∨ p.toNat = 79 ∨ p.toNat = 120 ∨ p.toNat = 88 := by
              rcases hp with (rfl | rfl) | (rfl | rfl) | rfl | rfl <;> decide
            unfold DigitOf at hd
            omega
          have hne : p ≠ 95 := by rintro rfl; revert hp; decide
          have no1 : ∀ c d r', 48 :: p :: t = c :: r' → DigitOf 10 c d → d ≠ 0 → False := by
            intro c d r' h hd h1
            simp only [List.cons.injEq] at h
            obtain ⟨rfl, _⟩ := h
            have : (48 : UInt8).toNat = 48 := rfl
            unfold DigitOf at hd
            rw [this] at hd
            omega
          have no2 : ∀ r' m, 48 :: p :: t = go!"0" ++ r' → Grouped 8 0 r' m → False := by
            intro r' m h hg
            simp only [List.cons_append, List.nil_append, List.cons.injEq, true_and] at h
            subst h
            obtain ⟨d, hd, _⟩ := (Grouped.cons_iff hne).mp hg
            exact nodig 8 d (by decide) hd
          cases t with
          | nil =>
            have hb : uintBase [48, p] = (8, [p]) := rfl
            rw [hb, uintLoop_nodigit (show 8 ≤ 16 by decide) hne (by rintro ⟨d, hd⟩; exact nodig 8 d (by decide) hd)]
            constructor
            · rintro ⟨h, _⟩; cases h
            · rintro ⟨⟨c, d, r', h, hd, h1, _⟩ | ⟨r', h, h1⟩ | ⟨r', hr, h⟩, hn⟩
              · exact absurd h1 (fun _ => no1 c d r' h hd h1)
              · exact (no2 r' n h h1).elim
              · exfalso
                rcases h with ⟨h | h, _⟩ | ⟨h | h, _⟩ | ⟨h | h, _⟩ <;>
                  (simp only [List.cons_append, List.nil_append, List.cons.injEq, true_and] at h
                   exact hr h.2.symm)
          | cons q t =>
            -- the base after the prefix
            have main : ∀ base hex, HexFits base hex → uintBase (48 :: p :: q :: t) = (base, q :: t) → decide (lowerByte p = 120) = hex →
                (uintLoop (uintBase (48 :: p :: q :: t)).1 0 (uintBase (48 :: p :: q :: t)).2 = some n ∧ underscoreOK (48 :: p :: q :: t) = true ↔
                  Grouped base 0 (q :: t) n ∧ n < 2 ^ 64) := by
              intro base hex hf hb hx
              rw [hb, hu, hx]
              exact grouped_iff hf _ (q :: t) 0 n (Nat.le_refl _) (by decide)
            have fin : ∀ base, (GoNat (48 :: p :: q :: t) n ↔ Grouped base 0 (q :: t) n) →
                (Grouped base 0 (q :: t) n ∧ n < 2 ^ 64 ↔ GoNat (48 :: p :: q :: t) n ∧ n < 2 ^ 64) := by
              intro base h; rw [h]
            have inv : GoNat (48 :: p :: q :: t) n → ((p = 98 ∨ p = 66) ∧ Grouped 2 0 (q :: t) n ∨ (p = 111 ∨ p = 79) ∧ Grouped 8 0 (q :: t) n ∨
                (p = 120 ∨ p = 88) ∧ Grouped 16 0 (q :: t) n) := by
              rintro (⟨c, d, r', h, hd, h1, _⟩ | ⟨r', h, h1⟩ | ⟨r', hr, h⟩)
              · exact (no1 c d r' h hd h1).elim
              · exact (no2 r' n h h1).elim
              · rcases h with ⟨h | h, hg⟩ | ⟨h | h, hg⟩ | ⟨h | h, hg⟩ <;>
                  (simp only [List.cons_append, List.nil_append, List.cons.injEq, true_and] at h
                   obtain ⟨rfl, rfl⟩ := h)
                · exact .inl ⟨.inl rfl, hg⟩
                · exact .inl ⟨.inr rfl, hg⟩
                · exact .inr (.inl ⟨.inl rfl, hg⟩)
                · exact .inr (.inl ⟨.inr rfl, hg⟩)
                · exact .inr (.inr ⟨.inl rfl, hg⟩)
                · exact .inr (.inr ⟨.inr rfl, hg⟩)
            rcases hp with hp | hp | hp
            · rw [main 2 false ⟨by decide, .inl (by decide)⟩ (by show (if _ then _ else _) = _; rw [if_pos (lb.mpr hp)])
                (by rcases hp with rfl | rfl <;> decide)]
              refine fin 2 ⟨fun h => ?_, fun h => .inr (.inr ⟨_, by simp, .inl ⟨by rcases hp with rfl | rfl; exacts [.inl rfl, .inr rfl], h⟩⟩)⟩
              rcases inv h with ⟨_, h⟩ | ⟨h, _⟩ | ⟨h, _⟩
              · exact h
              · exact absurd h (by rcases hp with rfl | rfl <;> decide)
              · exact absurd h (by rcases hp with rfl | rfl <;> decide)
            · rw [main 8 false ⟨by decide, .inl (by decide)⟩ (by rcases hp with rfl | rfl <;> rfl) (by rcases hp with rfl | rfl <;> decide)]
              refine fin 8 ⟨fun h => ?_, fun h => .inr (.inr ⟨_, by simp, .inr (.inl ⟨by rcases hp with rfl | rfl; exacts [.inl rfl, .inr rfl], h⟩)⟩)⟩
              rcases inv h with ⟨h, _⟩ | ⟨_, h⟩ | ⟨h, _⟩
              · exact absurd h (by rcases hp with rfl | rfl <;> decide)
              · exact h
              · exact absurd h (by rcases hp with rfl | rfl <;> decide)
            · rw [main 16 true ⟨by decide, .inr ⟨by decide, rfl⟩⟩ (by rcases hp with rfl | rfl <;> rfl) (by rcases hp with rfl | rfl <;> decide)]
              refine fin 16 ⟨fun h => ?_, fun h => .inr (.inr ⟨_, by simp, .inr (.inr ⟨by rcases hp with rfl | rfl; exacts [.inl rfl, .inr rfl], h⟩)⟩)⟩
              rcases inv h with ⟨h, _⟩ | ⟨h, _⟩ | ⟨_, h⟩
              · exact absurd h (by rcases hp with rfl | rfl <;> decide)
              · exact absurd h (by rcases hp with rfl | rfl <;> decide)
              · exact h
        · simp only [not_or] at hp
          obtain ⟨⟨p1, p2⟩, ⟨p3, p4⟩, p5, p6⟩ := hp
          have nb : ¬ lowerByte p = 98 := by rw [lb]; simp [p1, p2]
          have no : ¬ lowerByte p = 111 := by rw [lo]; simp [p3, p4]
          have nx : ¬ lowerByte p = 120 := by rw [lx]; simp [p5, p6]
          refine oct ?_ ?_ ?_
          · cases t with
            | nil => rfl
            | cons q t =>
              show (if _ then _ else _) = _
              rw [if_neg nb, if_neg no, if_neg nx]
          · show (if _ then _ else _) = _
            rw [if_neg (by simp [nb, no, nx])]
          · intro p' t' h _
            simp only [List.cons.injEq] at h
            obtain ⟨rfl, _⟩ := h
            exact ⟨p1, p2, p3, p4, p5, p6⟩
    · -- decimal
      have e1 : uintBase (c :: r) = (10, c :: r) := by
        unfold uintBase
        split <;> simp_all
      have e2 : underscoreOK (c :: r) = underscoreLoop false .start (c :: r) := by
        unfold underscoreOK
        split <;> simp_all
      rw [e1, e2]
      have hf : HexFits 10 false := ⟨by decide, .inl (by decide)⟩
      have other : ¬ (∃ d, DigitOf 10 c d) → ¬ GoNat (c :: r) n := by
        rintro hd (⟨c', d, r', h, h1, _⟩ | ⟨r', h, _⟩ | ⟨r', _, h⟩)
        · simp only [List.cons.injEq] at h
          obtain ⟨rfl, _⟩ := h
          exact hd ⟨d, h1⟩
        · simp only [List.cons_append, List.cons.injEq] at h; exact h0 h.1
        · rcases h with ⟨h | h, _⟩ | ⟨h | h, _⟩ | ⟨h | h, _⟩ <;>
            (simp only [List.cons_append, List.cons.injEq] at h; exact h0 h.1)
      by_cases hd : ∃ d, DigitOf 10 c d
      · obtain ⟨d, hd⟩ := hd
        have hd0 : d ≠ 0 := by
          rintro rfl
          apply h0
          have : c.toNat = 48 := by unfold DigitOf at hd; omega
          rw [← UInt8.toNat_inj, this]; rfl
        have h9 : d < 10 := hd.1
        rw [uintLoop_digit (by decide) hd, if_neg (by omega), underscoreLoop_digit hf hd,
          grouped_iff hf r.length r _ n (Nat.le_refl _) (by omega)]
        rw [show 0 * 10 + d = d by omega]
        constructor
        · rintro ⟨h, hn⟩; exact ⟨.inl ⟨c, d, r, rfl, hd, hd0, h⟩, hn⟩
        · rintro ⟨⟨c', d', r', h, h1, _, h2⟩ | ⟨r', h, _⟩ | ⟨r', _, h⟩, hn⟩
          · simp only [List.cons.injEq] at h
            obtain ⟨rfl, rfl⟩ := h
            rw [hd.unique (by decide) h1]
            exact ⟨h2, hn⟩
          · simp only [List.cons_append, List.cons.injEq] at h; exact absurd h.1 h0
          · rcases h with ⟨h | h, _⟩ | ⟨h | h, _⟩ | ⟨h | h, _⟩ <;>
              (simp only [List.cons_append, List.cons.injEq] at h; exact absurd h.1 h0)
      · constructor
        · rintro ⟨h1, h2⟩
          by_cases h5 : c = 95
          · subst h5
            rw [underscoreLoop, if_neg, if_pos rfl, if_neg (by decide)] at h2
            · cases h2
            · rintro (h | ⟨_, h⟩) <;> revert h <;> decide
          · rw [uintLoop_nodigit (by decide) h5 hd] at h1; cases h1
        · rintro ⟨h, _⟩; exact absurd h (other hd)

theorem GoNat.head {s : Bytes} {n : Nat} (h : GoNat s n) : ∃ c r, s = c :: r ∧ c ≠ 43 ∧ c ≠ 45 := by
  rcases h with ⟨c, d, r, rfl, hd, _⟩ | ⟨r, rfl, _⟩ | ⟨r, _, h⟩
  · refine ⟨c, r, rfl, ?_, ?_⟩ <;>
    · rintro rfl
      unfold DigitOf at hd
      simp at hd
      omega
  · exact ⟨48, r, rfl, by decide, by decide⟩
  · rcases h with ⟨rfl | rfl, _⟩ | ⟨rfl | rfl, _⟩ | ⟨rfl | rfl, _⟩ <;> exact ⟨48, _, rfl, by decide, by decide⟩

theorem parseInt0_iff (s : Bytes) (n : Int) : parseInt0 s = some n ↔ GoInt s n := by
  unfold GoInt
  cases s with
  | nil =>
    constructor
    · intro h; cases h
    · rintro ⟨_, _, m, r, h, h'⟩
      obtain ⟨c, r', rfl, _⟩ := h.head
      rcases h' with ⟨h | h, _⟩ | ⟨h, _⟩ <;> cases h
  | cons c r =>
    unfold parseInt0
    by_cases hm : c = 45
    · subst hm
      simp only [if_true]
      constructor
      · intro h
        cases hp : parseUint0 r with
        | none => simp [hp] at h
        | some m =>
          simp only [hp] at h
          split at h
          · cases h
          · cases h
            exact ⟨by omega, by omega, m, r, ((parseUint0_iff r m).mp hp).1, .inr ⟨rfl, rfl⟩⟩
      · rintro ⟨h1, h2, m, r', hg, h⟩
        obtain ⟨c', t, rfl, q1, q2⟩ := hg.head
        rcases h with ⟨h | h, _⟩ | ⟨h, rfl⟩
        · simp only [List.cons.injEq] at h; exact absurd h.1.symm q2
        · simp at h
        · simp only [List.cons_append, List.nil_append, List.cons.injEq, true_and] at h
          subst h
          rw [(parseUint0_iff _ m).mpr ⟨hg, by omega⟩]
          simp only
          rw [if_neg (by omega)]
    · simp only [if_neg hm]
      have key : ∀ r', (if c = 43 then r else c :: r) = r' →
          ((match parseUint0 r' with | none => none | some n => if 2 ^ 63 ≤ n then none else some (n : Int)) = some n ↔
            -2 ^ 63 ≤ n ∧ n < 2 ^ 63 ∧ ∃ m : Nat, GoNat r' m ∧ n = m) := by
        intro r' _
        constructor
        · intro h
          cases hp : parseUint0 r' with
          | none => simp [hp] at h
          | some m =>
            simp only [hp] at h
            split at h
            · cases h
            · cases h
              exact ⟨by omega, by omega, m, ((parseUint0_iff r' m).mp hp).1, rfl⟩
        · rintro ⟨h1, h2, m, hg, rfl⟩
          rw [(parseUint0_iff _ m).mpr ⟨hg, by omega⟩]
          simp only
          rw [if_neg (by omega)]
      refine (key _ rfl).trans ?_
      by_cases hp : c = 43
      · subst hp
        simp only [if_true]
        constructor
        · rintro ⟨h1, h2, m, hg, h⟩; exact ⟨h1, h2, m, r, hg, .inl ⟨.inr rfl, h⟩⟩
        · rintro ⟨h1, h2, m, r', hg, h⟩
          obtain ⟨c', t, rfl, q1, q2⟩ := hg.head
          rcases h with ⟨h | h, hh⟩ | ⟨h, rfl⟩
          · simp only [List.cons.injEq] at h; exact absurd h.1.symm q1
          · simp only [List.cons_append, List.nil_append, List.cons.injEq, true_and] at h
            subst h
            exact ⟨h1, h2, m, hg, hh⟩
          · simp at h
      · simp only [if_neg hp]
        constructor
        · rintro ⟨h1, h2, m, hg, h⟩; exact ⟨h1, h2, m, c :: r, hg, .inl ⟨.inl rfl, h⟩⟩
        · rintro ⟨h1, h2, m, r', hg, h⟩
          rcases h with ⟨h | h, hh⟩ | ⟨h, rfl⟩
          · subst h; exact ⟨h1, h2, m, hg, hh⟩
          · simp only [List.cons_append, List.cons.injEq] at h; exact absurd h.1 hp
          · simp only [List.cons_append, List.cons.injEq] at h; exact absurd h.1 hm

/-! ## Decimal digits -/

theorem grouped_decimal : ∀ (s : Bytes) (n : Nat), (∀ c ∈ s, 48 ≤ c ∧ c ≤ 57) → Grouped 10 n s (s.foldl (fun n c => n * 10 + (c.toNat - 48)) n)
  | [], n, _ => .nil n
  | c :: r, n, h => by
    have hc := h c (by simp)
    rw [UInt8.le_iff_toNat_le, UInt8.le_iff_toNat_le] at hc
    have h1 : (48 : UInt8).toNat = 48 := rfl
    have h2 : (57 : UInt8).toNat = 57 := rfl
    rw [h1, h2] at hc
    exact .digit n c (c.toNat - 48) r _ ⟨by omega, .inl ⟨by omega, by omega⟩⟩ (grouped_decimal r _ fun c hc => h c (by simp [hc]))

theorem PlainDecimal.goNat {s : Bytes} {n : Nat} (h : PlainDecimal s n) : GoNat s n := by
  obtain ⟨⟨h1, h2, rfl⟩, h3⟩ := h
  cases s with
  | nil => exact absurd rfl h1
  | cons c r =>
    by_cases hc : c = 48
    · have := h3 (by rw [hc]; rfl)
      rw [this]
      exact .inr (.inl ⟨[], rfl, .nil 0⟩)
    · left
      have hd := h2 c (by simp)
      rw [UInt8.le_iff_toNat_le, UInt8.le_iff_toNat_le] at hd
      have e1 : (48 : UInt8).toNat = 48 := rfl
      have e2 : (57 : UInt8).toNat = 57 := rfl
      rw [e1, e2] at hd
      have h0 : c.toNat ≠ 48 := by intro h; exact hc (by rw [← UInt8.toNat_inj, h]; rfl)
      refine ⟨c, c.toNat - 48, r, rfl, ⟨by omega, .inl ⟨by omega, by omega⟩⟩, by omega, ?_⟩
      have := grouped_decimal r (c.toNat - 48) fun c hc => h2 c (by simp [hc])
      simpa [List.foldl_cons] using this

end Egts
