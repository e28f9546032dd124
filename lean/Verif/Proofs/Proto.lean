import Verif.Spec.Proto
import Verif.Proofs.GoLemmas
import Mathlib.Data.List.Induction
import Mathlib.Tactic.Ring
import Mathlib.Tactic.NormNum

/-! # Lemmas about the protobuf model -/

namespace Egts

namespace Proto

/-! ## Varints -/

theorem base128_lt (b : Bytes) : base128 b < 128 ^ b.length := by
  induction b with
  | nil => simp [base128]
  | cons c b ih =>
    simp only [base128, List.length_cons, pow_succ]
    omega

theorem base128_snoc (b : Bytes) (c : UInt8) : base128 (b ++ [c]) = base128 b + 128 ^ b.length * (c.toNat % 128) := by
  induction b with
  | nil => simp [base128]
  | cons x b ih =>
    simp only [base128, List.cons_append, ih, List.length_cons, pow_succ]
    ring_nf

/-- A varint of at most `n` bytes, as `readVarintN` reads it. -/
def VarN (n v : Nat) (p : Bytes) : Prop :=
  ∃ init last, p = init ++ [last] ∧ (∀ c ∈ init, 0x80 ≤ c) ∧ last < 0x80 ∧ init.length < n ∧ (init.length + 1 = n → last < 2) ∧
    base128 p = v

theorem readVarintN_iff (n : Nat) (b : Bytes) (v : Nat) (r : Bytes) :
    readVarintN n b = some (v, r) ↔ ∃ p, b = p ++ r ∧ VarN n v p := by
  induction n generalizing b v with
  | zero =>
    constructor
    · intro h; cases h
    · rintro ⟨p, _, i, l, _, _, _, h, _⟩; omega
  | succ n ih =>
    cases b with
    | nil =>
      constructor
      · intro h; cases h
      · rintro ⟨p, h, i, l, rfl, _⟩; simp at h
    | cons c b =>
      simp only [readVarintN]
      constructor
      · intro h
        split at h
        · rename_i hc
          split at h
          · cases h
          · rename_i hn
            simp only [Option.some.injEq, Prod.mk.injEq] at h
            obtain ⟨rfl, rfl⟩ := h
            refine ⟨[c], rfl, [], c, rfl, by simp, hc, by simp, ?_, ?_⟩
            · intro hl
              have : n = 0 := by simpa using hl
              rw [← UInt8.not_le]
              exact fun hc => hn ⟨this, hc⟩
            · rw [UInt8.lt_iff_toNat_lt] at hc
              have : c.toNat < 128 := hc
              simp [base128]; omega
        · rename_i hc
          split at h
          · rename_i w r' hr
            simp only [Option.some.injEq, Prod.mk.injEq] at h
            obtain ⟨rfl, rfl⟩ := h
            obtain ⟨p, rfl, i, l, rfl, h1, h2, h3, h4, h5⟩ := (ih _ _).mp hr
            refine ⟨c :: (i ++ [l]), rfl, c :: i, l, rfl, ?_, h2, by simp; omega, ?_, ?_⟩
            · intro x hx
              rcases List.mem_cons.mp hx with rfl | hx
              · exact UInt8.not_lt.mp hc
              · exact h1 x hx
            · intro hl; apply h4; simp at hl; omega
            · have hc := UInt8.not_lt.mp hc
              rw [UInt8.le_iff_toNat_le] at hc
              have : 128 ≤ c.toNat := hc
              have := c.toNat_lt
              simp only [base128, h5]
              omega
          · cases h
      · rintro ⟨p, hp, i, l, rfl, h1, h2, h3, h4, h5⟩
        cases i with
        | nil =>
          simp only [List.nil_append, List.cons_append, List.cons.injEq] at hp
          obtain ⟨rfl, rfl⟩ := hp
          rw [if_pos h2, if_neg]
          · simp only [Option.some.injEq, Prod.mk.injEq, and_true]
            rw [← h5]
            rw [UInt8.lt_iff_toNat_lt] at h2
            have : c.toNat < 128 := h2
            simp [base128]; omega
          · rintro ⟨rfl, hc⟩
            have := h4 rfl
            exact absurd this (UInt8.not_lt.mpr hc)
        | cons x i =>
          simp only [List.cons_append, List.cons.injEq] at hp
          obtain ⟨rfl, rfl⟩ := hp
          have hx := h1 c (by simp)
          rw [if_neg (UInt8.not_lt.mpr hx)]
          have := (ih (i ++ [l] ++ r) (base128 (i ++ [l]))).mpr
            ⟨i ++ [l], rfl, i, l, rfl, fun y hy => h1 y (by simp [hy]), h2, by simp at h3; omega, fun hl => h4 (by simp; omega), rfl⟩
          rw [this]
          simp only [Option.some.injEq, Prod.mk.injEq, and_true]
          rw [← h5]
          rw [UInt8.le_iff_toNat_le] at hx
          have : 128 ≤ c.toNat := hx
          have := c.toNat_lt
          simp only [List.cons_append, base128]
          omega

theorem isVarint_iff (v : Nat) (p : Bytes) : IsVarint v p ↔ VarN 10 v p := by
  constructor
  · rintro ⟨i, l, rfl, h1, h2, h3, h4, h5⟩
    refine ⟨i, l, rfl, h1, h2, by simp at h3; omega, fun hl => ?_, h4⟩
    have hi : i.length = 9 := by omega
    rw [base128_snoc, hi] at h4
    rw [UInt8.lt_iff_toNat_lt] at h2 ⊢
    have : l.toNat < 128 := h2
    show l.toNat < 2
    rw [Nat.mod_eq_of_lt this] at h4
    norm_num at h4 h5
    omega
  · rintro ⟨i, l, rfl, h1, h2, h3, h4, h5⟩
    refine ⟨i, l, rfl, h1, h2, by simp; omega, h5, ?_⟩
    rw [← h5, base128_snoc]
    have hb := base128_lt i
    rw [UInt8.lt_iff_toNat_lt] at h2
    have : l.toNat < 128 := h2
    rw [Nat.mod_eq_of_lt this]
    rcases Nat.lt_or_ge i.length 9 with hi | hi
    · have : 128 ^ i.length * l.toNat ≤ 128 ^ i.length * 127 := Nat.mul_le_mul_left _ (by omega)
      have : 128 ^ (i.length + 1) ≤ 128 ^ 9 := Nat.pow_le_pow_right (by norm_num) (by omega)
      rw [pow_succ] at this
      norm_num at this ⊢
      omega
    · have hi : i.length = 9 := by omega
      have := h4 (by omega)
      rw [UInt8.lt_iff_toNat_lt] at this
      have : l.toNat < 2 := this
      rw [hi] at hb ⊢
      norm_num at hb ⊢
      omega

theorem readVarint_iff (b : Bytes) (v : Nat) (r : Bytes) : readVarint b = some (v, r) ↔ ∃ p, b = p ++ r ∧ IsVarint v p := by
  simp only [isVarint_iff]
  exact readVarintN_iff 10 b v r

theorem readVarint_append {v : Nat} {p : Bytes} (h : IsVarint v p) (r : Bytes) : readVarint (p ++ r) = some (v, r) :=
  (readVarint_iff _ _ _).mpr ⟨p, rfl, h⟩

theorem IsVarint.ne_nil {v : Nat} {p : Bytes} (h : IsVarint v p) : 1 ≤ p.length := by
  obtain ⟨i, l, rfl, _⟩ := h; simp

theorem IsVarint.lt {v : Nat} {p : Bytes} (h : IsVarint v p) : v < 2 ^ 64 := by
  obtain ⟨i, l, rfl, _, _, _, _, h⟩ := h; exact h

theorem IsVarint.length_le {v : Nat} {p : Bytes} (h : IsVarint v p) : p.length ≤ 10 := by
  obtain ⟨i, l, rfl, _, _, h, _⟩ := h; exact h

theorem putVarintN_var (n v : Nat) (hv : v < 128 ^ n) :
    ∃ init last, putVarintN n v = init ++ [last] ∧ (∀ c ∈ init, 0x80 ≤ c) ∧ last < 0x80 ∧ init.length < n ∧ base128 (putVarintN n v) = v ∨ n = 0 := by
  induction n generalizing v with
  | zero => exact ⟨[], 0, .inr rfl⟩
  | succ n ih =>
    simp only [putVarintN]
    by_cases h : v < 128
    · rw [if_pos h]
      have h1 : (UInt8.ofNat v).toNat = v := by simp; omega
      refine ⟨[], UInt8.ofNat v, .inl ⟨rfl, by simp, ?_, by simp, ?_⟩⟩
      · rw [UInt8.lt_iff_toNat_lt, h1]; exact h
      · simp only [base128, h1]; omega
    · rw [if_neg h]
      have hv' : v / 128 < 128 ^ n := by rw [pow_succ] at hv; omega
      have h1 : (UInt8.ofNat (v % 128 + 128)).toNat = v % 128 + 128 := by simp; omega
      obtain ⟨i, l, ⟨h2, h3, h4, h5, h6⟩ | rfl⟩ := ih _ hv'
      · refine ⟨UInt8.ofNat (v % 128 + 128) :: i, l, .inl ⟨by rw [h2]; rfl, ?_, h4, by simp; omega, ?_⟩⟩
        · intro c hc
          rcases List.mem_cons.mp hc with rfl | hc
          · rw [UInt8.le_iff_toNat_le, h1]; show 128 ≤ _; omega
          · exact h3 c hc
        · simp only [base128, h1, h6]; omega
      · simp at hv'; omega

theorem putVarint_is (v : Nat) (hv : v < 2 ^ 64) : IsVarint v (putVarint v) := by
  obtain ⟨i, l, ⟨h1, h2, h3, h4, h5⟩ | h⟩ := putVarintN_var 10 v (by norm_num; omega)
  · refine ⟨i, l, h1, h2, h3, ?_, h5, hv⟩
    unfold putVarint; rw [h1]; simp; omega
  · cases h

/-! ## Values -/

theorem readBytes_iff (b d r : Bytes) : readBytes b = some (d, r) ↔ ∃ h, b = h ++ d ++ r ∧ IsVarint d.length h := by
  unfold readBytes
  constructor
  · intro h
    split at h
    · rename_i n r' hr
      obtain ⟨p, rfl, hp⟩ := (readVarint_iff _ _ _).mp hr
      split at h
      · rename_i hn
        simp only [Option.some.injEq, Prod.mk.injEq] at h
        obtain ⟨rfl, rfl⟩ := h
        refine ⟨p, by simp, ?_⟩
        rw [List.length_take, Nat.min_eq_left hn]; exact hp
      · cases h
    · cases h
  · rintro ⟨h, rfl, hh⟩
    rw [List.append_assoc, readVarint_append hh]
    simp

theorem read32_iff (b : Bytes) (v : UInt32) (r : Bytes) :
    read32 b = some (v, r) ↔ ∃ a₀ a₁ a₂ a₃ : UInt8, b = [a₀, a₁, a₂, a₃] ++ r ∧
      v = UInt32.ofNat (a₀.toNat + 256 * a₁.toNat + 256 ^ 2 * a₂.toNat + 256 ^ 3 * a₃.toNat) := by
  unfold read32
  constructor
  · intro h
    split at h
    · simp only [Option.some.injEq, Prod.mk.injEq] at h
      obtain ⟨rfl, rfl⟩ := h
      match b with
      | a₀ :: a₁ :: a₂ :: a₃ :: b => exact ⟨a₀, a₁, a₂, a₃, rfl, rfl⟩
    · cases h
  · rintro ⟨a₀, a₁, a₂, a₃, rfl, rfl⟩
    simp [le32]

theorem append_inj_length {p q r s : Bytes} (h : p ++ r = q ++ s) (hl : p.length = q.length) : p = q ∧ r = s :=
  List.append_inj h hl

theorem skipPlain_sound {wt : Nat} {b r : Bytes} (h : skipPlain wt b = some r) (num : Nat) : ∃ p, b = p ++ r ∧ IsValue num wt p := by
  unfold skipPlain at h
  split at h
  · rw [Option.map_eq_some_iff] at h
    obtain ⟨⟨v, r'⟩, h, rfl⟩ := h
    obtain ⟨p, rfl, hp⟩ := (readVarint_iff _ _ _).mp h
    exact ⟨p, rfl, .varint hp⟩
  · split at h
    · cases h
      exact ⟨b.take 8, by simp, .fixed64 (by simp; omega)⟩
    · cases h
  · rw [Option.map_eq_some_iff] at h
    obtain ⟨⟨d, r'⟩, h, rfl⟩ := h
    obtain ⟨p, rfl, hp⟩ := (readBytes_iff _ _ _).mp h
    exact ⟨p ++ d, rfl, .bytes hp⟩
  · split at h
    · cases h
      exact ⟨b.take 4, by simp, .fixed32 (by simp; omega)⟩
    · cases h
  · cases h

theorem skipPlain_complete {num wt : Nat} {p : Bytes} (h : IsValue num wt p) (hw : wt ≠ 3) (r : Bytes) : skipPlain wt (p ++ r) = some r := by
  cases h with
  | varint h => simp [skipPlain, readVarint_append h]
  | fixed64 h => simp [skipPlain, h]
  | @bytes _ h d hh => show (readBytes (h ++ d ++ r)).map _ = _; rw [(readBytes_iff _ _ _).mpr ⟨_, rfl, hh⟩]; rfl
  | fixed32 h => simp [skipPlain, h]
  | groupEnd => exact absurd rfl hw
  | groupField => exact absurd rfl hw

theorem IsValue.ne_nil {num wt : Nat} {p : Bytes} (h : IsValue num wt p) : 1 ≤ p.length := by
  cases h with
  | varint h => exact h.ne_nil
  | fixed64 h => omega
  | bytes h => have := h.ne_nil; simp; omega
  | fixed32 h => omega
  | groupEnd h => exact h.ne_nil
  | groupField h => have := h.ne_nil; simp; omega

theorem skipGroup_sound (k : Nat) (st : List Nat) (b r : Bytes) (h : skipGroup k st b = some r) :
    ∃ ps : List Bytes, b = ps.flatten ++ r ∧ List.Forall₂ (fun n p => IsValue n 3 p) st ps := by
  induction k generalizing st b with
  | zero =>
    cases st with
    | nil => cases h; exact ⟨[], rfl, .nil⟩
    | cons => cases h
  | succ k ih =>
    cases st with
    | nil => cases h; exact ⟨[], rfl, .nil⟩
    | cons num st =>
      simp only [skipGroup] at h
      split at h
      · cases h
      · rename_i tag b' hr
        obtain ⟨t, rfl, ht⟩ := (readVarint_iff _ _ _).mp hr
        split at h
        · cases h
        · rename_i hn
          push Not at hn
          have e : tag = 8 * (tag / 8) + tag % 8 := by omega
          split at h
          · rename_i h4
            split at h
            · rename_i hnum
              obtain ⟨ps, rfl, hps⟩ := ih _ _ h
              refine ⟨t :: ps, by simp, .cons (.groupEnd ?_ (by omega) (by omega)) hps⟩
              rw [← hnum, ← h4, ← e]; exact ht
            · cases h
          · split at h
            · rename_i h3
              obtain ⟨ps, rfl, hps⟩ := ih _ _ h
              cases hps with
              | @cons _ p1 _ _ h1 hps =>
                cases hps with
                | @cons _ p2 _ ps h2 hps =>
                  refine ⟨(t ++ p1 ++ p2) :: ps, by simp, .cons (.groupField (num' := tag / 8) (wt' := tag % 8) ?_ (by omega) (by omega) ?_ h2) hps⟩
                  · rw [← e]; exact ht
                  · rw [h3]; exact h1
            · split at h
              · rename_i b'' hs
                obtain ⟨p1, rfl, hp1⟩ := skipPlain_sound hs (tag / 8)
                obtain ⟨ps, rfl, hps⟩ := ih _ _ h
                cases hps with
                | @cons _ p2 _ ps h2 hps =>
                  refine ⟨(t ++ p1 ++ p2) :: ps, by simp, .cons (.groupField (num' := tag / 8) (wt' := tag % 8) ?_ (by omega) (by omega) hp1 h2) hps⟩
                  rw [← e]; exact ht
              · cases h

theorem IsValue.wt_lt {num wt : Nat} {p : Bytes} (h : IsValue num wt p) : wt < 8 ∧ wt ≠ 4 := by
  cases h <;> decide

theorem skipGroup_complete {num wt : Nat} {p : Bytes} (h : IsValue num wt p) : wt = 3 → ∀ k st r, (p ++ r).length ≤ k →
    ∃ k', r.length ≤ k' ∧ skipGroup k (num :: st) (p ++ r) = skipGroup k' st r := by
  induction h with
  | varint => intro h; cases h
  | fixed64 => intro h; cases h
  | bytes => intro h; cases h
  | fixed32 => intro h; cases h
  | @groupEnd num t ht h1 h2 =>
    intro _ k st r hk
    have := ht.ne_nil
    simp only [List.length_append] at hk
    obtain ⟨k, rfl⟩ : ∃ k', k = k' + 1 := ⟨k - 1, by omega⟩
    refine ⟨k, by omega, ?_⟩
    have e1 : (8 * num + 4) / 8 = num := by omega
    have e2 : (8 * num + 4) % 8 = 4 := by omega
    simp only [skipGroup, readVarint_append ht, e1, e2]
    rw [if_neg (by omega)]
    simp
  | @groupField num num' wt' t p rest ht h1 h2 hv hrest ihv ihr =>
    intro _ k st r hk
    have := ht.ne_nil
    have := hv.ne_nil
    simp only [List.length_append] at hk
    obtain ⟨k, rfl⟩ : ∃ k', k = k' + 1 := ⟨k - 1, by omega⟩
    obtain ⟨hw1, hw2⟩ := hv.wt_lt
    have e1 : (8 * num' + wt') / 8 = num' := by omega
    have e2 : (8 * num' + wt') % 8 = wt' := by omega
    rw [List.append_assoc, List.append_assoc]
    simp only [skipGroup, readVarint_append ht, e1, e2]
    rw [if_neg (by omega), if_neg hw2]
    split
    · rename_i h3
      obtain ⟨k', hk', e⟩ := ihv h3 k (num :: st) (rest ++ r) (by simp; omega)
      rw [e]
      exact ihr rfl k' st r hk'
    · rename_i h3
      rw [skipPlain_complete hv h3]
      exact ihr rfl k st r (by simp; omega)

theorem skipValue_iff (num wt : Nat) (b r : Bytes) : skipValue num wt b = some r ↔ ∃ p, b = p ++ r ∧ IsValue num wt p := by
  unfold skipValue
  by_cases h3 : wt = 3
  · rw [if_pos h3]
    subst h3
    constructor
    · intro h
      obtain ⟨ps, rfl, hps⟩ := skipGroup_sound _ _ _ _ h
      cases hps with
      | @cons _ p _ _ hp hps => cases hps; exact ⟨p, by simp, hp⟩
    · rintro ⟨p, rfl, hp⟩
      obtain ⟨k', _, e⟩ := skipGroup_complete hp rfl (p ++ r).length [] r (Nat.le_refl _)
      rw [e]
      cases k' <;> rfl
  · rw [if_neg h3]
    exact ⟨fun h => skipPlain_sound h num, fun ⟨p, hb, hp⟩ => hb ▸ skipPlain_complete hp h3 r⟩

theorem value_unique {num wt : Nat} {p q r s : Bytes} (hp : IsValue num wt p) (hq : IsValue num wt q) (h : p ++ r = q ++ s) : p = q ∧ r = s := by
  have h1 := (skipValue_iff num wt (p ++ r) r).mpr ⟨p, rfl, hp⟩
  have h2 := (skipValue_iff num wt (q ++ s) s).mpr ⟨q, rfl, hq⟩
  rw [h] at h1
  rw [h2] at h1
  cases h1
  exact ⟨List.append_cancel_right h, rfl⟩

/-! ## The loop over the fields -/

/-- The effect of a whole field. -/
def stepF {M : Type} (known : Nat → Nat → Bool) (eff : Nat → Nat → Bytes → M → Option M) (keep : Bytes → M → M) (f : WField) (m : M) : Option M :=
  if known f.num f.wt then eff f.num f.wt f.payload m else some (keep f.canon m)

/-- The effect of several fields. -/
def runF {M : Type} (known : Nat → Nat → Bool) (eff : Nat → Nat → Bytes → M → Option M) (keep : Bytes → M → M) : List WField → M → Option M
  | [], m => some m
  | f :: fs, m =>
    match stepF known eff keep f m with
    | some m => runF known eff keep fs m
    | none => none

theorem runF_append {M : Type} (known : Nat → Nat → Bool) (eff : Nat → Nat → Bytes → M → Option M) (keep : Bytes → M → M) (fs gs : List WField) (m : M) :
    runF known eff keep (fs ++ gs) m = (runF known eff keep fs m).bind (runF known eff keep gs) := by
  induction fs generalizing m with
  | nil => rfl
  | cons f fs ih =>
    simp only [List.cons_append, runF]
    cases stepF known eff keep f m with
    | none => rfl
    | some m => exact ih m

theorem WField.ne_nil {f : WField} (h : f.Ok) : 2 ≤ f.bytes.length := by
  have := h.1.ne_nil
  have := h.2.2.2.2.ne_nil
  simp only [WField.bytes, List.length_append]
  omega

section
variable {M : Type} {field : Nat → Nat → Bytes → M → Step M} {keep : Bytes → M → M}
  {known : Nat → Nat → Bool} {eff : Nat → Nat → Bytes → M → Option M}

theorem parse_sound
    (h1 : ∀ num wt b m, known num wt = false → field num wt b m = .unknown)
    (h2 : ∀ num wt b m m2 r, known num wt = true → field num wt b m = .ok m2 r → ∃ p, b = p ++ r ∧ IsValue num wt p ∧ eff num wt p m = some m2)
    (h3 : ∀ num wt b m, known num wt = true → field num wt b m ≠ .unknown)
    (k : Nat) (b : Bytes) (m m' : M) (h : parse field keep k b m = some m') :
    ∃ fs : List WField, (∀ f ∈ fs, f.Ok) ∧ b = fs.flatMap WField.bytes ∧ runF known eff keep fs m = some m' := by
  induction k generalizing b m with
  | zero =>
    cases b with
    | nil => exact ⟨[], by simp, rfl, h⟩
    | cons => cases h
  | succ k ih =>
    cases b with
    | nil => exact ⟨[], by simp, rfl, h⟩
    | cons c b =>
      generalize c :: b = b at h
      cases b with
      | nil => exact ⟨[], by simp, rfl, h⟩
      | cons c b =>
      simp only [parse] at h
      split at h
      · cases h
      · rename_i tag b' hr
        obtain ⟨t, hb, ht⟩ := (readVarint_iff _ _ _).mp hr
        rw [hb]
        split at h
        · cases h
        · rename_i hn
          push Not at hn
          have e : tag = 8 * (tag / 8) + tag % 8 := by omega
          have ht' := ht
          rw [e] at ht'
          split at h
          · cases h
          · rename_i m2 r hf
            cases hk : known (tag / 8) (tag % 8) with
            | false => rw [h1 _ _ _ _ hk] at hf; cases hf
            | true =>
              obtain ⟨p, rfl, hv, he⟩ := h2 _ _ _ _ _ _ hk hf
              obtain ⟨fs, hfs, rfl, hrun⟩ := ih _ _ h
              refine ⟨⟨tag / 8, tag % 8, t, p⟩ :: fs, ?_, by simp [WField.bytes], ?_⟩
              · intro f hf
                rcases List.mem_cons.mp hf with rfl | hf
                · exact ⟨ht', by show tag % 8 < 8; omega, by show 1 ≤ tag / 8; omega, by show tag / 8 < _; omega, hv⟩
                · exact hfs f hf
              · simp only [runF, stepF, hk, if_true, he]
                exact hrun
          · rename_i hf
            cases hk : known (tag / 8) (tag % 8) with
            | true => exact absurd hf (h3 _ _ _ _ hk)
            | false =>
              split at h
              · cases h
              · rename_i r hs
                obtain ⟨p, rfl, hv⟩ := (skipValue_iff _ _ _ _).mp hs
                obtain ⟨fs, hfs, rfl, hrun⟩ := ih _ _ h
                refine ⟨⟨tag / 8, tag % 8, t, p⟩ :: fs, ?_, by simp [WField.bytes], ?_⟩
                · intro f hf
                  rcases List.mem_cons.mp hf with rfl | hf
                  · exact ⟨ht', by show tag % 8 < 8; omega, by show 1 ≤ tag / 8; omega, by show tag / 8 < _; omega, hv⟩
                  · exact hfs f hf
                · simp only [runF, stepF, hk, Bool.false_eq_true, if_false, WField.canon]
                  rw [← hrun]
                  simp

theorem parse_complete
    (h1 : ∀ num wt b m, known num wt = false → field num wt b m = .unknown)
    (h2 : ∀ num wt p r m m2, known num wt = true → IsValue num wt p → eff num wt p m = some m2 → field num wt (p ++ r) m = .ok m2 r)
    (fs : List WField) (hfs : ∀ f ∈ fs, f.Ok) (k : Nat) (m m' : M) (hk : (fs.flatMap WField.bytes).length ≤ k)
    (h : runF known eff keep fs m = some m') : parse field keep k (fs.flatMap WField.bytes) m = some m' := by
  induction fs generalizing k m with
  | nil =>
    cases h
    cases k <;> rfl
  | cons f fs ih =>
    have hf := hfs f (by simp)
    have hl := WField.ne_nil hf
    obtain ⟨ht, hw, hn1, hn2, hv⟩ := hf
    simp only [List.flatMap_cons, List.length_append] at hk
    obtain ⟨k, rfl⟩ : ∃ k', k = k' + 1 := ⟨k - 1, by omega⟩
    rw [List.flatMap_cons]
    have e1 : (8 * f.num + f.wt) / 8 = f.num := by omega
    have e2 : (8 * f.num + f.wt) % 8 = f.wt := by omega
    have hne : ∃ c b, f.bytes ++ fs.flatMap WField.bytes = c :: b := by
      cases hb : f.bytes with
      | nil => rw [hb] at hl; simp at hl
      | cons c b => exact ⟨c, _, rfl⟩
    have hr : readVarint (f.bytes ++ fs.flatMap WField.bytes) = some (8 * f.num + f.wt, f.payload ++ fs.flatMap WField.bytes) := by
      rw [WField.bytes, List.append_assoc]
      exact readVarint_append ht _
    obtain ⟨c, b, hcb⟩ := hne
    rw [hcb] at hr ⊢
    simp only [parse, hr, e1, e2]
    have hw4 := hv.wt_lt.2
    rw [if_neg (by omega)]
    simp only [runF] at h
    cases hkn : known f.num f.wt with
    | true =>
      simp only [stepF, hkn, if_true] at h
      cases he : eff f.num f.wt f.payload m with
      | none => rw [he] at h; cases h
      | some m2 =>
        rw [he] at h
        rw [h2 _ _ _ _ _ _ hkn hv he]
        exact ih (fun g hg => hfs g (by simp [hg])) k m2 (by omega) h
    | false =>
      simp only [stepF, hkn, Bool.false_eq_true, if_false] at h
      rw [h1 _ _ _ _ hkn]
      simp only [(skipValue_iff _ _ _ _).mpr ⟨f.payload, rfl, hv⟩]
      have : (f.payload ++ fs.flatMap WField.bytes).take ((f.payload ++ fs.flatMap WField.bytes).length - (fs.flatMap WField.bytes).length) = f.payload := by
        simp
      rw [this]
      exact ih (fun g hg => hfs g (by simp [hg])) k _ (by omega) h

end

end Proto

end Egts
