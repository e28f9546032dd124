import Verif.Spec.Cli
import Mathlib.Tactic.Ring

/-! # Lemmas about command lines -/

namespace Egts

/-! ## Arguments -/

theorem splitEq_none (acc : Bytes) : ∀ (s : Bytes), 61 ∉ s → splitEq acc s = (acc ++ s, none)
  | [], _ => by simp [splitEq]
  | c :: r, h => by
    simp only [List.mem_cons, not_or] at h
    rw [splitEq, if_neg (fun x => h.1 x.1.symm), splitEq_none _ r h.2]
    simp

theorem splitEq_some (v : Bytes) : ∀ (s acc : Bytes), 61 ∉ s → acc ++ s ≠ [] → splitEq acc (s ++ 61 :: v) = (acc ++ s, some v)
  | [], acc, _, h => by simp_all [splitEq]
  | c :: r, acc, h, _ => by
    simp only [List.mem_cons, not_or] at h
    rw [List.cons_append, splitEq, if_neg (fun x => h.1 x.1.symm), splitEq_some v r _ h.2 (by simp)]
    simp

/-- What `splitEq` gives is such a split. -/
theorem splitEq_inv : ∀ (s acc : Bytes), 61 ∉ acc → (acc = [] → s.head? ≠ some 61) → 
    (61 ∉ s ∧ splitEq acc s = (acc ++ s, none)) ∨ ∃ a v, s = a ++ 61 :: v ∧ 61 ∉ a ∧ acc ++ a ≠ [] ∧ splitEq acc s = (acc ++ a, some v)
  | [], acc, _, _ => .inl ⟨by simp, by simp [splitEq]⟩
  | c :: r, acc, ha, h => by
    by_cases hc : c = 61
    · subst hc
      have hne : acc ≠ [] := fun x => h x rfl
      exact .inr ⟨[], r, rfl, by simp, by simpa using hne, by rw [splitEq, if_pos ⟨rfl, hne⟩]; simp⟩
    · have hs : splitEq acc (c :: r) = splitEq (acc ++ [c]) r := by rw [splitEq, if_neg (fun x => hc x.1)]
      rcases splitEq_inv r (acc ++ [c]) (by simp [ha, Ne.symm hc]) (by simp) with ⟨h1, h2⟩ | ⟨a, v, h1, h2, h3, h4⟩
      · exact .inl ⟨by simp [Ne.symm hc, h1], by rw [hs, h2]; simp⟩
      · exact .inr ⟨c :: a, v, by rw [h1]; rfl, by simp [Ne.symm hc, h2], by simp, by rw [hs, h4]; simp⟩

theorem argKind_dashes : argKind (go!"--") = .dashes := rfl

theorem argKind_stop (a : Bytes) (h : a = go!"-" ∨ a.head? ≠ some 45) : argKind a = .stop := by
  rcases h with rfl | h
  · rfl
  · unfold argKind
    split
    · simp at h
    · simp at h
    · rfl

theorem argKind_name (name x : Bytes) (hn : OptionName name) (two : Bool) (v : Option Bytes) (hx : splitEq [] (name ++ x) = (name, v)) :
    argKind ((if two then go!"--" else go!"-") ++ (name ++ x)) = .option name v := by
  obtain ⟨h1, h2, h3⟩ := hn
  cases name with
  | nil => exact absurd rfl h1
  | cons n0 n =>
    have hn0 : n0 ≠ 45 := by simpa using h2
    have hn1 : n0 ≠ 61 := by rintro rfl; simp at h3
    cases two
    · show argKind (45 :: n0 :: (n ++ x)) = _
      unfold argKind
      split
      · rename_i h; simp at h; exact absurd h.1 hn0
      · rename_i c t _ h
        simp only [List.cons.injEq, true_and] at h
        obtain ⟨rfl, rfl⟩ := h
        simp only [if_neg hn0]
        rw [if_neg (by simp [hn0, hn1])]
        simp only [List.cons_append] at hx
        rw [hx]
      · rename_i h; exact absurd rfl (h _ _)
    · show argKind (45 :: 45 :: n0 :: (n ++ x)) = _
      unfold argKind
      split
      · rename_i h; simp at h
      · rename_i c t _ h
        simp only [List.cons.injEq, true_and] at h
        obtain ⟨rfl, rfl⟩ := h
        simp only [if_true]
        rw [if_neg (by simp [hn0, hn1])]
        simp only [List.cons_append] at hx
        rw [hx]
      · rename_i h; exact absurd rfl (h _ _)

/-- What an argument can be. -/
theorem argKind_cases (a : Bytes) :
    (argKind a = .stop ∧ (a = go!"-" ∨ a.head? ≠ some 45)) ∨ (argKind a = .dashes ∧ a = go!"--") ∨ argKind a = .bad ∨
    (∃ name, OptionName name ∧ argKind a = .option name none ∧ (a = go!"-" ++ name ∨ a = go!"--" ++ name)) ∨
    (∃ name v, OptionName name ∧ argKind a = .option name (some v) ∧ (a = go!"-" ++ name ++ go!"=" ++ v ∨ a = go!"--" ++ name ++ go!"=" ++ v)) := by
  have key : ∀ name : Bytes, name ≠ [] → name.head? ≠ some 45 → name.head? ≠ some 61 →
      (OptionName name ∧ splitEq [] name = (name, none)) ∨ ∃ n v, OptionName n ∧ name = n ++ go!"=" ++ v ∧ splitEq [] name = (n, some v) := by
    intro name h1 h2 h3
    rcases splitEq_inv name [] (by simp) (fun _ => h3) with ⟨h4, h5⟩ | ⟨n, v, h4, h5, h6, h7⟩
    · exact .inl ⟨⟨h1, h2, h4⟩, by simpa using h5⟩
    · refine .inr ⟨n, v, ⟨by simpa using h6, ?_, h5⟩, by rw [h4]; simp [List.append_assoc], by simpa using h7⟩
      intro hh
      apply h2
      rw [h4]
      cases n with
      | nil => simp at hh
      | cons => simpa using hh
  by_cases hs : a = go!"-" ∨ a.head? ≠ some 45
  · exact .inl ⟨argKind_stop a hs, hs⟩
  simp only [not_or, not_not] at hs
  match a, hs with
  | [], hs => simp at hs
  | [c], hs => exact absurd (by simpa using hs.2) (fun h : c = 45 => hs.1 (by rw [h]))
  | c0 :: c :: t, hs =>
    have hc0 : c0 = 45 := by simpa using hs.2
    subst hc0
    right
    by_cases hd : c = 45 ∧ t = []
    · obtain ⟨rfl, rfl⟩ := hd
      exact .inl ⟨rfl, rfl⟩
    right
    have hk : argKind (45 :: c :: t) =
        match (if c = 45 then t else c :: t) with
        | [] => .bad
        | n0 :: x => if n0 = 45 ∨ n0 = 61 then .bad else .option (splitEq [] (n0 :: x)).1 (splitEq [] (n0 :: x)).2 := by
      conv_lhs => unfold argKind
      split
      · rename_i h; simp at h; exact absurd h hd
      · rename_i c' t' _ h
        simp only [List.cons.injEq, true_and] at h
        obtain ⟨rfl, rfl⟩ := h
        by_cases hc : c = 45
        · simp only [if_pos hc]
          cases t <;> rfl
        · simp only [if_neg hc]
      · rename_i h; exact absurd rfl (h _ _)
    obtain ⟨pre, name, hpre, hname, hk⟩ : ∃ pre name : Bytes, (pre = go!"-" ∨ pre = go!"--") ∧ (45 :: c :: t = pre ++ name) ∧
        argKind (45 :: c :: t) = match name with
        | [] => .bad
        | n0 :: x => if n0 = 45 ∨ n0 = 61 then .bad else .option (splitEq [] (n0 :: x)).1 (splitEq [] (n0 :: x)).2 := by
      by_cases hc : c = 45
      · rw [if_pos hc] at hk
        exact ⟨go!"--", t, .inr rfl, by rw [hc]; rfl, hk⟩
      · rw [if_neg hc] at hk
        exact ⟨go!"-", c :: t, .inl rfl, rfl, hk⟩
    rw [hname] at hk ⊢
    cases name with
    | nil => exact .inl hk
    | cons n0 x =>
      simp only at hk
      by_cases hb : n0 = 45 ∨ n0 = 61
      · rw [if_pos hb] at hk; exact .inl hk
      rw [if_neg hb] at hk
      right
      simp only [not_or] at hb
      rcases key (n0 :: x) (by simp) (by simpa using hb.1) (by simpa using hb.2) with ⟨h1, h2⟩ | ⟨n, v, h1, h2, h3⟩
      · left
        rw [h2] at hk
        exact ⟨_, h1, hk, by rcases hpre with rfl | rfl <;> simp⟩
      · right
        rw [h3] at hk
        refine ⟨n, v, h1, hk, ?_⟩
        rw [h2]
        rcases hpre with rfl | rfl <;> simp [List.append_assoc]

/-! ## `Parse` -/

section

variable {S : Type} (formal : Bytes → Option (Bytes → S → Option S))

/-- Setting the options in turn. -/
def setAll : List (Bytes × Bytes) → S → Option S
  | [], s => some s
  | (n, v) :: os, s => (formal n).bind fun set => (set v s).bind fun s => setAll os s

theorem flagParse_spelled {name value : Bytes} {as : List Bytes} (hn : OptionName name) (hs : Spelled name value as) (rest : List Bytes) (s : S) :
    flagParse formal (as ++ rest) s = match formal name with
      | none => .error (if name = go!"help" ∨ name = go!"h" then .help else .usage)
      | some set => match set value s with
        | none => .error .usage
        | some s => flagParse formal rest s := by
  have h3 := hn.2.2
  have e1 := fun two => argKind_name name [] hn two none (by rw [List.append_nil]; simpa using splitEq_none [] name h3)
  have e2 := fun two => argKind_name name (61 :: value) hn two (some value) (by simpa using splitEq_some value name [] h3 (by simpa using hn.1))
  simp only [List.append_nil] at e1
  cases hs with
  | one =>
    have := e1 false
    simp only [Bool.false_eq_true, if_false, List.cons_append, List.nil_append] at this
    simp only [List.cons_append, List.nil_append]
    rw [flagParse]
    simp only [this]
    cases formal name <;> rfl
  | two =>
    have := e1 true
    simp only [if_true, List.cons_append, List.nil_append] at this
    simp only [List.cons_append, List.nil_append]
    rw [flagParse]
    simp only [this]
    cases formal name <;> rfl
  | oneEq =>
    have := e2 false
    simp only [Bool.false_eq_true, if_false] at this
    simp only [List.cons_append, List.nil_append, List.append_assoc] at this ⊢
    rw [flagParse]
    simp only [this]
    cases formal name <;> rfl
  | twoEq =>
    have := e2 true
    simp only [if_true] at this
    simp only [List.cons_append, List.nil_append, List.append_assoc] at this ⊢
    rw [flagParse]
    simp only [this]
    cases formal name <;> rfl

/-- A command line that gives options has them set, if they can be. -/
theorem flagParse_ok {argv : List Bytes} {opts : List (Bytes × Bytes)} (h : CommandLine argv opts) : ∀ (s s' : S), setAll formal opts s = some s' →
    ∃ rest, flagParse formal argv s = .ok (s', rest) := by
  induction h with
  | nil => intro s s' h; cases h; exact ⟨[], rfl⟩
  | dashes rest => intro s s' h; cases h; exact ⟨rest, rfl⟩
  | stop a rest ha =>
    intro s s' h
    cases h
    exact ⟨a :: rest, by rw [flagParse, argKind_stop a ha]⟩
  | option name value as rest opts hn hs hr ih =>
    intro s s' h
    rw [flagParse_spelled formal hn hs]
    simp only [setAll, Option.bind_eq_some_iff] at h
    obtain ⟨set, h1, s1, h2, h3⟩ := h
    simp only [h1, h2]
    exact ih _ _ h3

/-- If `Parse` does not end the program the command line gives options that can be set. -/
theorem flagParse_inv : ∀ (k : Nat) (argv : List Bytes) (s s' : S) (rest : List Bytes), argv.length ≤ k → flagParse formal argv s = .ok (s', rest) →
    ∃ opts, CommandLine argv opts ∧ setAll formal opts s = some s'
  | _, [], s, s', rest, _, h => by
    simp only [flagParse, Except.ok.injEq, Prod.mk.injEq] at h
    exact ⟨[], .nil, by rw [setAll, h.1]⟩
  | 0, a :: as, _, _, _, hk, _ => by simp at hk
  | k + 1, a :: as, s, s', rest, hk, h => by
    simp only [List.length_cons, Nat.add_le_add_iff_right] at hk
    rcases argKind_cases a with ⟨e, ha⟩ | ⟨e, rfl⟩ | e | ⟨name, hn, e, ha⟩ | ⟨name, v, hn, e, ha⟩
    · rw [flagParse, e] at h
      simp only [Except.ok.injEq, Prod.mk.injEq] at h
      exact ⟨[], .stop a as ha, by rw [setAll, h.1]⟩
    · rw [flagParse, e] at h
      simp only [Except.ok.injEq, Prod.mk.injEq] at h
      exact ⟨[], .dashes as, by rw [setAll, h.1]⟩
    · rw [flagParse, e] at h
      cases h
    · cases as with
      | nil =>
        rw [flagParse] at h
        simp only [e] at h
        cases hf : formal name <;> simp [hf] at h
      | cons v as =>
        have hs : Spelled name v [a, v] := by rcases ha with rfl | rfl; exacts [.one, .two]
        have hp := flagParse_spelled formal hn hs as s
        simp only [List.cons_append, List.nil_append] at hp
        rw [hp] at h
        cases hf : formal name with
        | none => simp [hf] at h
        | some set =>
          cases hv : set v s with
          | none => simp [hf, hv] at h
          | some s1 =>
            simp only [hf, hv] at h
            obtain ⟨opts, h1, h2⟩ := flagParse_inv k as s1 s' rest (by simp at hk; omega) h
            exact ⟨(name, v) :: opts, .option name v [a, v] as opts hn hs h1, by simp [setAll, hf, hv, h2]⟩
    · have hs : Spelled name v [a] := by rcases ha with rfl | rfl; exacts [.oneEq, .twoEq]
      have hp := flagParse_spelled formal hn hs as s
      simp only [List.cons_append, List.nil_append] at hp
      rw [hp] at h
      cases hf : formal name with
      | none => simp [hf] at h
      | some set =>
        cases hv : set v s with
        | none => simp [hf, hv] at h
        | some s1 =>
          simp only [hf, hv] at h
          obtain ⟨opts, h1, h2⟩ := flagParse_inv k as s1 s' rest hk h
          exact ⟨(name, v) :: opts, .option name v [a] as opts hn hs h1, by simp [setAll, hf, hv, h2]⟩

/-- The help is asked for if `Parse` says so. -/
theorem flagParse_help (valid : Bytes → Bytes → Prop) (hv : ∀ n v (s : S), valid n v ↔ ∃ set, formal n = some set ∧ (set v s).isSome) :
    ∀ (k : Nat) (argv : List Bytes) (s : S), argv.length ≤ k → flagParse formal argv s = .error .help → AsksHelp valid argv
  | _, [], s, _, h => by simp [flagParse] at h
  | 0, a :: as, _, hk, _ => by simp at hk
  | k + 1, a :: as, s, hk, h => by
    simp only [List.length_cons, Nat.add_le_add_iff_right] at hk
    have hh : ∀ name, (Except.error (if name = go!"help" ∨ name = go!"h" then .help else .usage) : Except FlagErr (S × List Bytes)) = .error .help →
        name = go!"h" ∨ name = go!"help" := by
      intro name h
      by_cases hc : name = go!"help" ∨ name = go!"h"
      · exact hc.symm
      · rw [if_neg hc] at h; cases h
    rcases argKind_cases a with ⟨e, ha⟩ | ⟨e, rfl⟩ | e | ⟨name, hn, e, ha⟩ | ⟨name, v, hn, e, ha⟩
    · rw [flagParse, e] at h; cases h
    · rw [flagParse, e] at h; cases h
    · rw [flagParse, e] at h; cases h
    · cases hf : formal name with
      | none =>
        rw [flagParse] at h
        simp only [e, hf] at h
        exact .here name a as (hh name h) (by rcases ha with ha | ha; exacts [.inl ha, .inr (.inl ha)])
      | some set =>
        cases as with
        | nil => rw [flagParse] at h; simp [e, hf] at h
        | cons v as =>
          have hs : Spelled name v [a, v] := by rcases ha with rfl | rfl; exacts [.one, .two]
          have hp := flagParse_spelled formal hn hs as s
          simp only [List.cons_append, List.nil_append] at hp
          rw [hp] at h
          cases hx : set v s with
          | none => simp [hf, hx] at h
          | some s1 =>
            simp only [hf, hx] at h
            exact .option name v [a, v] as hn hs ((hv name v s).mpr ⟨set, hf, by rw [hx]; rfl⟩)
              (flagParse_help valid hv k as s1 (by simp at hk; omega) h)
    · cases hf : formal name with
      | none =>
        rw [flagParse] at h
        simp only [e, hf] at h
        exact .here name a as (hh name h) (.inr (.inr ⟨v, ha⟩))
      | some set =>
        have hs : Spelled name v [a] := by rcases ha with rfl | rfl; exacts [.oneEq, .twoEq]
        have hp := flagParse_spelled formal hn hs as s
        simp only [List.cons_append, List.nil_append] at hp
        rw [hp] at h
        cases hx : set v s with
        | none => simp [hf, hx] at h
        | some s1 =>
          simp only [hf, hx] at h
          exact .option name v [a] as hn hs ((hv name v s).mpr ⟨set, hf, by rw [hx]; rfl⟩) (flagParse_help valid hv k as s1 hk h)

/-- If the help is asked for and is not an option of its own, `Parse` says so. -/
theorem flagParse_asked (valid : Bytes → Bytes → Prop) (hv : ∀ n v (s : S), valid n v ↔ ∃ set, formal n = some set ∧ (set v s).isSome)
    (h1 : formal (go!"h") = none) (h2 : formal (go!"help") = none) {argv : List Bytes} (h : AsksHelp valid argv) :
    ∀ s, flagParse formal argv s = .error .help := by
  induction h with
  | here name a rest hn ha =>
    intro s
    have ho : OptionName name := by rcases hn with rfl | rfl <;> (unfold OptionName; decide)
    have hf : formal name = none := by rcases hn with rfl | rfl <;> assumption
    have hne : (if name = go!"help" ∨ name = go!"h" then FlagErr.help else .usage) = .help := by rw [if_pos hn.symm]
    have e1 := fun two => argKind_name name [] ho two none (by rw [List.append_nil]; simpa using splitEq_none [] name ho.2.2)
    simp only [List.append_nil] at e1
    rcases ha with rfl | rfl | ⟨v, rfl | rfl⟩
    · have e := e1 false
      simp only [Bool.false_eq_true, if_false, List.cons_append, List.nil_append] at e
      simp only [List.cons_append, List.nil_append]
      rw [flagParse]; simp only [e, hf, hne]
    · have e := e1 true
      simp only [if_true, List.cons_append, List.nil_append] at e
      simp only [List.cons_append, List.nil_append]
      rw [flagParse]; simp only [e, hf, hne]
    · have := flagParse_spelled formal ho (.oneEq (value := v)) rest s
      simp only [List.cons_append, List.nil_append, hf, hne] at this
      exact this
    · have := flagParse_spelled formal ho (.twoEq (value := v)) rest s
      simp only [List.cons_append, List.nil_append, hf, hne] at this
      exact this
  | option name value as rest hn hs hval hr ih =>
    intro s
    obtain ⟨set, hf, hx⟩ := (hv name value s).mp hval
    obtain ⟨s1, hx⟩ := Option.isSome_iff_exists.mp hx
    rw [flagParse_spelled formal hn hs]
    simp only [hf, hx]
    exact ih s1

end

end Egts
