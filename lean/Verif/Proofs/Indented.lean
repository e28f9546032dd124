import Verif.Spec.Lines
import Verif.Proofs.JsonIndent

/-! # Lemmas: indentation -/

namespace Egts
open Json

/-- What the brackets change. -/
def depthStep (c : UInt8) : Int := if c = 123 ∨ c = 91 then 1 else if c = 125 ∨ c = 93 then -1 else 0

/-- 1 for a closing bracket. -/
def closing (c : UInt8) : Int := if c = 125 ∨ c = 93 then 1 else 0

theorem nesting_cons (c : UInt8) (r : Bytes) : nesting (c :: r) = depthStep c + nesting r := rfl

/-- The line that begins with `r`, at depth `d`. -/
def LineOk (d : Int) (r : Bytes) : Prop :=
  ∀ n c t, r = List.replicate n 32 ++ c :: t → c ≠ 32 → (n : Int) = 4 * (d - closing c)

/-- All lines of a text that begins at depth `d`. -/
def Lay : Int → Bytes → Prop
  | _, [] => True
  | d, c :: r => (c = 10 → LineOk d r) ∧ Lay (d + depthStep c) r

theorem lay_lines {s : Bytes} {d : Int} (h : Lay d s) : ∀ (a : Bytes) (n : Nat) (c : UInt8) (r : Bytes),
    s = a ++ [10] ++ List.replicate n 32 ++ c :: r → c ≠ 32 → (n : Int) = 4 * (d + nesting a - closing c) := by
  intro a
  induction a generalizing s d with
  | nil =>
    intro n c r e hc
    subst e
    have := h.1 rfl n c r rfl hc
    simpa [nesting] using this
  | cons x a ih =>
    intro n c r e hc
    subst e
    have := ih h.2 n c r rfl hc
    rw [nesting_cons, ← add_assoc]
    exact this

theorem lay_indented {s : Bytes} (h : Lay 0 s) : IndentedBy 4 s := by
  intro a n c r e hc
  have := lay_lines h a n c r e hc
  rw [zero_add] at this
  exact this

/-- Texts without brackets and without line breaks. -/
def Flat (p : Bytes) : Prop := ∀ c ∈ p, c ≠ 10 ∧ c ≠ 123 ∧ c ≠ 91 ∧ c ≠ 125 ∧ c ≠ 93

instance (s : Bytes) : Decidable (Flat s) := by unfold Flat; infer_instance

theorem flat_append {a b : Bytes} (h1 : Flat a) (h2 : Flat b) : Flat (a ++ b) :=
  fun c hc => (List.mem_append.mp hc).elim (h1 c) (h2 c)

theorem lay_flat {p r : Bytes} {d : Int} (hp : Flat p) (h : Lay d r) : Lay d (p ++ r) := by
  induction p with
  | nil => exact h
  | cons c p ih =>
    obtain ⟨h1, h2, h3, h4, h5⟩ := hp c (List.mem_cons_self ..)
    refine ⟨fun e => absurd e h1, ?_⟩
    have : depthStep c = 0 := by unfold depthStep; rw [if_neg (by tauto), if_neg (by tauto)]
    rw [this, add_zero]
    exact ih fun x hx => hp x (List.mem_cons_of_mem _ hx)

theorem replicate_split {n m : Nat} {c k : UInt8} {t u : Bytes} (hc : c ≠ 32) (hk : k ≠ 32)
    (h : List.replicate n (32 : UInt8) ++ c :: t = List.replicate m 32 ++ k :: u) : n = m ∧ c = k := by
  induction n generalizing m with
  | zero =>
    cases m with
    | zero => simp at h; exact ⟨rfl, h.1⟩
    | succ m => simp [List.replicate_succ] at h; exact absurd h.1 hc
  | succ n ih =>
    cases m with
    | zero => simp [List.replicate_succ] at h; exact absurd h.1.symm hk
    | succ m =>
      simp only [List.replicate_succ, List.cons_append, List.cons.injEq, true_and] at h
      obtain ⟨a, b⟩ := ih h
      exact ⟨by omega, b⟩

theorem lay_newline {d : Int} {m : Nat} {k : UInt8} {t : Bytes} (hk : k ≠ 32) (hm : (m : Int) = d - closing k) (h : Lay d (k :: t)) :
    Lay d (newline m ++ k :: t) := by
  refine ⟨fun _ => ?_, ?_⟩
  · intro n c u e hc
    obtain ⟨a, b⟩ := replicate_split hk hc e
    subst a b
    push_cast
    rw [hm]
  · have : depthStep 10 = 0 := by decide
    rw [this, add_zero]
    exact lay_flat (fun c hc => by rw [List.eq_of_mem_replicate hc]; decide) h

/-- A value at depth `d`: it ends at the depth at which it begins, its lines are indented, and it begins with
neither a blank nor a closing bracket. -/
def LaidOut (d : Nat) (v : Bytes) : Prop :=
  (∃ k t, v = k :: t ∧ k ≠ 32 ∧ closing k = 0) ∧ ∀ r, Lay d r → Lay d (v ++ r)

theorem laidOut_flat {d : Nat} {v : Bytes} (hf : Flat v) (h : ∃ k t, v = k :: t ∧ k ≠ 32) : LaidOut d v := by
  obtain ⟨k, t, rfl, hk⟩ := h
  refine ⟨⟨k, t, rfl, hk, ?_⟩, fun r hr => lay_flat hf hr⟩
  obtain ⟨_, _, _, h4, h5⟩ := hf k (List.mem_cons_self ..)
  unfold closing
  rw [if_neg (by tauto)]

theorem lay_elems {d : Nat} {r : Bytes} (hr : Lay (d + 1) r) : ∀ es : List Bytes, es ≠ [] → (∀ e ∈ es, LaidOut (d + 1) e) →
    Lay (d + 1) (newline (d + 1) ++ ((44 :: newline (d + 1)).intercalate es ++ r))
  | [], h, _ => absurd rfl h
  | [e], _, h => by
    obtain ⟨⟨k, t, rfl, hk, h0⟩, h1⟩ := h e (by simp)
    have h2 := h1 r (by exact_mod_cast hr)
    have : (44 :: newline (d + 1)).intercalate [k :: t] = k :: t := by simp [List.intercalate]
    rw [this]
    exact lay_newline hk (by rw [h0]; push_cast; ring) (by exact_mod_cast h2)
  | e :: e' :: es, _, h => by
    have ih := lay_elems hr (e' :: es) (by simp) (fun x hx => h x (List.mem_cons_of_mem _ hx))
    obtain ⟨⟨k, t, rfl, hk, h0⟩, h1⟩ := h e (by simp)
    rw [intercalate_cons']
    simp only [List.append_assoc]
    refine lay_newline hk (by rw [h0]; push_cast; ring) ?_
    have h2 := h1 _ (by
      have := lay_flat (p := [44]) (d := (d : Int) + 1) (by decide) ih
      exact_mod_cast this)
    exact_mod_cast h2

theorem laidOut_brackets {d : Nat} {o c : UInt8} {es : List Bytes} (ho : o = 123 ∧ c = 125 ∨ o = 91 ∧ c = 93) (hes : es ≠ [])
    (h : ∀ e ∈ es, LaidOut (d + 1) e) :
    LaidOut d ([o] ++ newline (d + 1) ++ (44 :: newline (d + 1)).intercalate es ++ newline d ++ [c]) := by
  have hs : depthStep o = 1 ∧ depthStep c = -1 ∧ closing c = 1 ∧ closing o = 0 ∧ o ≠ 32 ∧ c ≠ 32 ∧ o ≠ 10 ∧ c ≠ 10 := by
    rcases ho with ⟨rfl, rfl⟩ | ⟨rfl, rfl⟩ <;> decide
  obtain ⟨s1, s2, s3, s4, s5, s6, s7, s8⟩ := hs
  refine ⟨⟨o, newline (d + 1) ++ ((44 :: newline (d + 1)).intercalate es ++ (newline d ++ [c])), by simp, s5, s4⟩, fun r hr => ?_⟩
  simp only [List.append_assoc, List.singleton_append, List.cons_append, List.nil_append]
  refine ⟨fun e => absurd e s7, ?_⟩
  rw [s1]
  have hend : Lay ((d : Int) + 1) (newline d ++ c :: r) := by
    refine lay_newline s6 (by rw [s3]; ring) ⟨fun e => absurd e s8, ?_⟩
    rw [s2]
    have : (d : Int) + 1 + -1 = d := by ring
    rw [this]
    exact hr
  exact lay_elems hend es hes h

theorem laidOut_object {d : Nat} {ms : List (Bytes × Bytes)} (hne : ms ≠ []) (h : ∀ m ∈ ms, Flat (jsonString m.1) ∧ LaidOut (d + 1) m.2) :
    LaidOut d (indObject d ms) := by
  refine laidOut_brackets (.inl ⟨rfl, rfl⟩) (by simpa using hne) ?_
  intro e he
  obtain ⟨m, hm, rfl⟩ := List.mem_map.mp he
  obtain ⟨h1, h2⟩ := h m hm
  refine ⟨⟨34, (m.1.flatMap jsonChar ++ [34]) ++ [58, 32] ++ m.2, by simp [jsonString], by decide, by decide⟩, fun r hr => ?_⟩
  simp only [List.append_assoc]
  exact lay_flat h1 (lay_flat (p := [58, 32]) (by decide) (h2.2 r hr))

theorem laidOut_slice {d : Nat} {es : List Bytes} (h : ∀ e ∈ es, LaidOut (d + 1) e) : LaidOut d (indSlice d es) := by
  unfold indSlice
  split
  · exact laidOut_flat (by decide) ⟨_, _, rfl, by decide⟩
  · rename_i hne
    exact laidOut_brackets (.inr ⟨rfl, rfl⟩) hne h

theorem flat_numeric {a : Bytes} (h : ∀ c ∈ a, isDigit c = true ∨ c = 43 ∨ c = 45 ∨ c = 46 ∨ c = 101) : Flat a := by
  intro c hc
  rcases h c hc with h | rfl | rfl | rfl | rfl
  · rcases isDigit_cases h with rfl | rfl | rfl | rfl | rfl | rfl | rfl | rfl | rfl | rfl <;> decide
  all_goals decide

theorem laidOut_decNat (d n : Nat) : LaidOut d (decNat n) := by
  have hd := (decNat_int n).digits
  obtain ⟨c, r, e, hc⟩ := decNat_start n
  refine laidOut_flat (flat_numeric fun c hc => .inl (hd c hc)) ⟨c, r, e, ?_⟩
  rintro rfl
  exact absurd hc (by decide)

theorem flat_string {s : Bytes} (h : ∀ c ∈ s, c ≠ 123 ∧ c ≠ 91 ∧ c ≠ 125 ∧ c ≠ 93) : Flat (jsonString s) := by
  have key : ∀ n : Fin 256, (UInt8.ofNat n ≠ 123 ∧ UInt8.ofNat n ≠ 91 ∧ UInt8.ofNat n ≠ 125 ∧ UInt8.ofNat n ≠ 93) → Flat (jsonChar (UInt8.ofNat n)) := by
    decide +kernel
  unfold jsonString
  refine flat_append (flat_append (by decide) ?_) (by decide)
  intro c hc
  obtain ⟨x, hx, hc⟩ := List.mem_flatMap.mp hc
  have := key ⟨x.toNat, x.toNat_lt⟩
  simp only [UInt8.ofNat_toNat] at this
  exact this (h x hx) c hc

end Egts
