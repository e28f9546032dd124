import Verif.Spec.Flags
import Verif.Proofs.GoLemmas

namespace Egts

theorem binFold_ge (s : Bytes) : ∀ n, n ≤ s.foldl (fun n c => 2 * n + (if c = 49 then 1 else 0)) n := by
  induction s with
  | nil => intro n; exact Nat.le_refl _
  | cons c s ih =>
    intro n
    refine Nat.le_trans ?_ (ih _)
    show n ≤ 2 * n + _
    omega

theorem parseLoop_none (max : Nat) : ∀ (s : Bytes) (n v : Nat), parseLoop max n s = (v, none) ∧ n ≤ max ↔
    (∀ c ∈ s, c = 48 ∨ c = 49) ∧ s.foldl (fun n c => 2 * n + (if c = 49 then 1 else 0)) n = v ∧ v ≤ max
  | [], n, v => by
    simp only [parseLoop, List.foldl_nil, Prod.mk.injEq, and_true, List.not_mem_nil, false_implies, implies_true, true_and]
    constructor
    · rintro ⟨rfl, h⟩; exact ⟨rfl, h⟩
    · rintro ⟨rfl, h⟩; exact ⟨rfl, h⟩
  | c :: s, n, v => by
    simp only [parseLoop, List.foldl_cons, List.mem_cons, forall_eq_or_imp]
    by_cases h0 : c = 48
    · subst h0
      simp only [if_true, true_or, true_and]
      rw [if_neg (show ¬ (48 : UInt8) = 49 by decide), Nat.add_zero]
      by_cases hm : 2 * n > max
      · rw [if_pos hm]
        constructor
        · rintro ⟨h, _⟩; cases h
        · rintro ⟨_, rfl, h⟩
          have := binFold_ge s (2 * n)
          omega
      · rw [if_neg hm]
        have ih := parseLoop_none max s (2 * n) v
        rw [← ih]
        constructor
        · rintro ⟨h, _⟩; exact ⟨h, by omega⟩
        · rintro ⟨h, _⟩; exact ⟨h, by omega⟩
    · rw [if_neg h0]
      by_cases h1 : c = 49
      · subst h1
        simp only [if_true, or_true, true_and]
        by_cases hm : 2 * n + 1 > max
        · rw [if_pos hm]
          constructor
          · rintro ⟨h, _⟩; cases h
          · rintro ⟨_, rfl, h⟩
            have := binFold_ge s (2 * n + 1)
            omega
        · rw [if_neg hm]
          have ih := parseLoop_none max s (2 * n + 1) v
          rw [← ih]
          constructor
          · rintro ⟨h, _⟩; exact ⟨h, by omega⟩
          · rintro ⟨h, _⟩; exact ⟨h, by omega⟩
      · rw [if_neg h1]
        constructor
        · rintro ⟨h, _⟩; cases h
        · rintro ⟨⟨h | h, _⟩, _⟩
          · exact absurd h h0
          · exact absurd h h1

theorem parseFlags_iff (s : Bytes) (v : UInt8) :
    parseFlags s = .ok v ↔ SpellsByte s ∧ v = UInt8.ofNat (binVal s) := by
  unfold parseFlags parseUint2 SpellsByte
  by_cases hs : s = []
  · simp [hs]
  · rw [if_neg hs]
    have key := parseLoop_none (2 ^ 8 - 1) s 0
    cases hp : parseLoop (2 ^ 8 - 1) 0 s with
    | mk n o =>
      cases o with
      | none =>
        obtain ⟨h1, h2, h3⟩ := (key n).mp ⟨hp, by omega⟩
        have : binVal s = n := h2
        simp only [Except.ok.injEq]
        constructor
        · rintro rfl; exact ⟨⟨hs, h1, by omega⟩, by rw [this]⟩
        · rintro ⟨_, rfl⟩; rw [this]
      | some e =>
        constructor
        · intro h; cases h
        · rintro ⟨⟨_, h2, h3⟩, _⟩
          have := (key (binVal s)).mpr ⟨h2, rfl, by omega⟩
          rw [hp] at this
          cases this.1

theorem parseFlags_error {s : Bytes} (h : ¬ SpellsByte s) : ∃ e, parseFlags s = .error e := by
  cases hp : parseFlags s with
  | error e => exact ⟨e, rfl⟩
  | ok v => exact absurd ((parseFlags_iff s v).mp hp).1 h

end Egts
