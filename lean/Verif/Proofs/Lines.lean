import Verif.Spec.Lines
import Verif.Proofs.PkgJson

/-! # Lemmas: characters and lines of texts -/

namespace Egts
open Utf8 Json

theorem oneLine_nil : OneLine [] := ⟨[], by simp, rfl⟩

theorem oneLine_append {s t : Bytes} (h1 : OneLine s) (h2 : OneLine t) : OneLine (s ++ t) := by
  obtain ⟨a, ha, rfl⟩ := h1
  obtain ⟨b, hb, rfl⟩ := h2
  exact ⟨a ++ b, fun n hn => (List.mem_append.mp hn).elim (ha n) (hb n), by rw [List.flatMap_append]⟩

theorem oneLine_enc {n : Nat} (h : Scalar n) (h2 : Harmless n) : OneLine (enc n) := ⟨[n], by simpa using ⟨h, h2⟩, by simp⟩

/-- ASCII without the characters in question. -/
def Tame (s : Bytes) : Prop := ∀ c ∈ s, c < 128 ∧ 32 ≤ c ∧ c ≠ 60 ∧ c ≠ 62 ∧ c ≠ 38

instance (s : Bytes) : Decidable (Tame s) := by unfold Tame; infer_instance

theorem tame_append {a b : Bytes} (h1 : Tame a) (h2 : Tame b) : Tame (a ++ b) :=
  fun c hc => (List.mem_append.mp hc).elim (h1 c) (h2 c)

theorem tame_sub {a b : Bytes} (h : Tame b) (hs : ∀ c ∈ a, c ∈ b) : Tame a := fun c hc => h c (hs c hc)

theorem oneLine_tame {s : Bytes} (h : Tame s) : OneLine s := by
  induction s with
  | nil => exact oneLine_nil
  | cons c s ih =>
    obtain ⟨hc, h32, h60, h62, h38⟩ := h c (List.mem_cons_self ..)
    have h128 : c.toNat < 128 := by simpa [UInt8.lt_iff_toNat_lt] using hc
    have h32' : 32 ≤ c.toNat := by simpa [UInt8.le_iff_toNat_le] using h32
    have ne : ∀ k : UInt8, c ≠ k → c.toNat ≠ k.toNat := fun k hk he => hk (UInt8.toNat_inj.mp he)
    have h1 : OneLine (enc c.toNat) := oneLine_enc (.inl (by omega))
      ⟨h32', ne 60 h60, ne 62 h62, ne 38 h38, by omega, by omega⟩
    rw [enc_ascii hc] at h1
    exact oneLine_append h1 (ih (fun c hc => h c (List.mem_cons_of_mem _ hc)))

theorem jsonChar_tame {c : UInt8} (h : c < 128) : Tame (jsonChar c) := by
  have key : ∀ n : Fin 128, Tame (jsonChar (UInt8.ofNat n)) := by decide +kernel
  have h128 : c.toNat < 128 := by simpa [UInt8.lt_iff_toNat_lt] using h
  have := key ⟨c.toNat, h128⟩
  simp only [UInt8.ofNat_toNat] at this
  exact this

theorem escapeN_oneLine : ∀ (k : Nat) (s : Bytes), OneLine (escapeN k s) := by
  intro k
  induction k with
  | zero => intro s; exact oneLine_nil
  | succ k ih =>
    intro s
    cases s with
    | nil => exact oneLine_nil
    | cons c s =>
      unfold escapeN
      split
      · rename_i hc
        exact oneLine_append (oneLine_tame (jsonChar_tame hc)) (ih s)
      · split
        · exact oneLine_append (oneLine_tame (by decide)) (ih s)
        · rename_i hc _ n size hr
          obtain ⟨h1, h2, _⟩ := runeAt_sound hr
          refine oneLine_append ?_ (ih _)
          split
          · rename_i h20
            refine oneLine_tame ?_
            rcases h20 with rfl | rfl <;> decide
          · rename_i h20
            rw [h2]
            refine oneLine_enc h1 ?_
            have hn : 128 ≤ n := by
              by_contra hlt
              have hlt : n < 128 := by omega
              have he : enc n = [UInt8.ofNat n] := by unfold enc; rw [if_pos (by omega)]
              rw [he] at h2
              have hsz : size ≠ 0 := by rintro rfl; simp at h2
              obtain ⟨k, rfl⟩ := Nat.exists_eq_succ_of_ne_zero hsz
              simp only [List.take_succ_cons, List.cons.injEq] at h2
              apply hc
              rw [h2.1, UInt8.lt_iff_toNat_lt, UInt8.toNat_ofNat']
              show n % 256 < 128
              omega
            refine ⟨by omega, by omega, by omega, by omega, fun h => h20 (.inl h), fun h => h20 (.inr h)⟩

theorem marshalString_oneLine (s : Bytes) : OneLine (marshalString s) :=
  oneLine_append (oneLine_append (oneLine_tame (by decide)) (escapeN_oneLine _ _)) (oneLine_tame (by decide))

/-- The characters of numbers. -/
def Numeric (s : Bytes) : Prop := ∀ c ∈ s, isDigit c = true ∨ c = 43 ∨ c = 45 ∨ c = 46 ∨ c = 101

instance (s : Bytes) : Decidable (Numeric s) := by unfold Numeric; infer_instance

theorem numeric_append {a b : Bytes} (h1 : Numeric a) (h2 : Numeric b) : Numeric (a ++ b) :=
  fun c hc => (List.mem_append.mp hc).elim (h1 c) (h2 c)

theorem numeric_digits {a : Bytes} (h : ∀ c ∈ a, isDigit c = true) : Numeric a := fun c hc => .inl (h c hc)

theorem numeric_tame {a : Bytes} (h : Numeric a) : Tame a := by
  intro c hc
  rcases h c hc with h | rfl | rfl | rfl | rfl
  · rcases isDigit_cases h with rfl | rfl | rfl | rfl | rfl | rfl | rfl | rfl | rfl | rfl <;> decide
  all_goals decide

theorem decNat_numeric (n : Nat) : Numeric (decNat n) := numeric_digits (decNat_int n).digits

theorem decInt_numeric (i : Int) : Numeric (decInt i) := by
  unfold decInt
  split
  · exact numeric_append (a := [45]) (by decide) (decNat_numeric _)
  · exact decNat_numeric _

theorem fmtF_chars {ds : Bytes} {dp : Int} (h : ∀ c ∈ ds, isDigit c = true) : ∀ c ∈ fmtF ds dp, isDigit c = true ∨ c = 46 := by
  have hr : ∀ n, ∀ c ∈ List.replicate n (48 : UInt8), isDigit c = true := fun n c hc => by rw [List.eq_of_mem_replicate hc]; decide
  intro c hc
  unfold fmtF at hc
  split at hc
  · simp only [List.mem_append, List.mem_cons, List.not_mem_nil, or_false] at hc
    rcases hc with ((rfl | rfl) | hc) | hc
    · exact .inl (by decide)
    · exact .inr rfl
    · exact .inl (hr _ c hc)
    · exact .inl (h c hc)
  · split at hc
    · simp only [List.mem_append, List.mem_cons, List.not_mem_nil, or_false] at hc
      rcases hc with (hc | rfl) | hc
      · exact .inl (h c (List.mem_of_mem_take hc))
      · exact .inr rfl
      · exact .inl (h c (List.mem_of_mem_drop hc))
    · simp only [List.mem_append] at hc
      rcases hc with hc | hc
      · exact .inl (h c hc)
      · exact .inl (hr _ c hc)

theorem fmtE_numeric {ds : Bytes} {dp : Int} (h : ∀ c ∈ ds, isDigit c = true) : Numeric (fmtE ds dp) := by
  unfold fmtE
  refine numeric_append (numeric_append (numeric_append (numeric_append
    (numeric_digits fun c hc => h c (List.mem_of_mem_take hc)) ?_) (by decide)) ?_) (decNat_numeric _)
  · split
    · decide
    · exact numeric_append (by decide) (numeric_digits fun c hc => h c (List.mem_of_mem_drop hc))
  · split <;> decide

theorem shortest_chars (m : Nat) : ∀ c ∈ (((Nat.digits 10 m).dropWhile (· = 0)).reverse.map (fun d => UInt8.ofNat (48 + d))), isDigit c = true :=
  allDigits_map _ fun d hd => digits_lt m d ((List.dropWhile_sublist _).subset hd)

theorem fmtF_numeric {ds : Bytes} {dp : Int} (h : ∀ c ∈ ds, isDigit c = true) : Numeric (fmtF ds dp) := by
  intro c hc
  rcases fmtF_chars h c hc with h | h
  · exact .inl h
  · exact .inr (.inr (.inr (.inl h)))

theorem jsonPos_numeric (f : ℚ) : Numeric (jsonPos f) := by
  unfold jsonPos shortest
  simp only
  split
  · exact fmtE_numeric (shortest_chars _)
  · exact fmtF_numeric (shortest_chars _)

theorem jsonPos32_numeric (f : ℚ) : Numeric (jsonPos32 f) := by
  unfold jsonPos32 shortest32
  simp only
  split
  · exact fmtE_numeric (shortest_chars _)
  · exact fmtF_numeric (shortest_chars _)

theorem jsonFloat_numeric (f : ℚ) : Numeric (jsonFloat f) := by
  unfold jsonFloat
  split
  · decide
  · split
    · exact numeric_append (a := [45]) (by decide) (jsonPos_numeric _)
    · exact jsonPos_numeric _

theorem marshalF32_numeric {bits : UInt32} {b : Bytes} (h : marshalF32 bits = some b) : Numeric b := by
  unfold marshalF32 at h
  rw [Option.map_eq_some_iff] at h
  obtain ⟨a, _, rfl⟩ := h
  refine numeric_append ?_ ?_
  · split <;> decide
  · split
    · decide
    · exact jsonPos32_numeric _

theorem digitsW_tame (w n : Nat) : Tame (digitsW w n) := numeric_tame (numeric_digits (digitsW_digits w n))

theorem fraction_tame (ns : Nat) : Tame (fraction ns) := by
  unfold fraction
  simp only
  split
  · decide
  · refine tame_append (a := [46]) (by decide) (tame_sub (digitsW_tame 9 ns) fun c hc => ?_)
    have hc : c ∈ (List.dropWhile (fun x => decide (x = 48)) (List.reverse (digitsW 9 ns))).reverse := hc
    rw [List.mem_reverse] at hc
    exact List.mem_reverse.mp ((List.dropWhile_sublist _).subset hc)

theorem marshalTime_tame {t : GoTime} {b : Bytes} (h : marshalTime t = some b) : Tame b := by
  unfold marshalTime at h
  simp only at h
  split at h
  · injection h with h
    subst h
    have hs : ∀ c : Bytes, Tame c → Tame c := fun _ h => h
    refine tame_append (tame_append (tame_append (tame_append (tame_append (tame_append (tame_append (tame_append (tame_append (tame_append
      (tame_append (tame_append (tame_append ?_ ?_) ?_) ?_) ?_) ?_) ?_) ?_) ?_) ?_) ?_) ?_) ?_) ?_
    all_goals first | decide | exact digitsW_tame _ _ | exact fraction_tame _
  · cases h

theorem b64_tame (n : Nat) : Tame [b64Char n] := by
  rcases Nat.lt_or_ge n 64 with h | h
  · have key : ∀ k : Fin 64, Tame [b64Char k] := by decide +kernel
    exact key ⟨n, h⟩
  · unfold b64Char
    rw [if_neg (by omega), if_neg (by omega), if_neg (by omega), if_neg (by omega)]
    decide

theorem base64_tame : ∀ x : Bytes, Tame (base64 x)
  | a :: b :: c :: r => by
    unfold base64
    exact tame_append (tame_append (a := [_]) (b64_tame _) (tame_append (a := [_]) (b64_tame _) (tame_append (a := [_]) (b64_tame _) (b64_tame _))))
      (base64_tame r)
  | [a, b] => by
    unfold base64
    exact tame_append (a := [_]) (b64_tame _) (tame_append (a := [_]) (b64_tame _) (tame_append (a := [_]) (b64_tame _) (by decide)))
  | [a] => by
    unfold base64
    exact tame_append (a := [_]) (b64_tame _) (tame_append (a := [_]) (b64_tame _) (by decide))
  | [] => by unfold base64; decide

theorem jsonString_tame {s : Bytes} (h : IsAscii s) : Tame (jsonString s) := by
  unfold jsonString
  refine tame_append (tame_append (by decide) ?_) (by decide)
  intro c hc
  rw [List.mem_flatMap] at hc
  obtain ⟨x, hx, hc⟩ := hc
  exact jsonChar_tame (h x hx) c hc

theorem intercalate_oneLine {es : List Bytes} (h : ∀ e ∈ es, OneLine e) : OneLine (([44] : Bytes).intercalate es) := by
  induction es with
  | nil => exact oneLine_nil
  | cons a es ih =>
    cases es with
    | nil => simpa [List.intercalate] using h
    | cons b es =>
      rw [intercalate_cons]
      refine oneLine_append (h a (List.mem_cons_self ..)) ?_
      exact oneLine_append (s := [44]) (oneLine_tame (by decide)) (ih fun e he => h e (List.mem_cons_of_mem _ he))

theorem object_oneLine {es : List (Bytes × Bytes)} (h : ∀ e ∈ es, IsAscii e.1 ∧ OneLine e.2) : OneLine (jsonObject es) := by
  refine oneLine_append (oneLine_append (oneLine_tame (by decide)) (intercalate_oneLine ?_)) (oneLine_tame (by decide))
  intro e he
  obtain ⟨m, hm, rfl⟩ := List.mem_map.mp he
  exact oneLine_append (oneLine_append (oneLine_tame (jsonString_tame (h m hm).1)) (oneLine_tame (by decide))) (h m hm).2

mutual
theorem GoVal.json_oneLine : ∀ (v : GoVal) (b : Bytes), v.Ok → v.json = some b → OneLine b
  | .null, b, _, h => by
    simp only [GoVal.json, Option.some.injEq] at h; subst h
    exact oneLine_tame (by decide)
  | .uint n, b, _, h => by
    simp only [GoVal.json, Option.some.injEq] at h; subst h
    exact oneLine_tame (numeric_tame (decNat_numeric n))
  | .int i, b, _, h => by
    simp only [GoVal.json, Option.some.injEq] at h; subst h
    exact oneLine_tame (numeric_tame (decInt_numeric i))
  | .bool x, b, _, h => by
    simp only [GoVal.json, Option.some.injEq] at h; subst h
    exact oneLine_tame (by cases x <;> decide)
  | .str s, b, _, h => by
    simp only [GoVal.json, Option.some.injEq] at h; subst h
    exact marshalString_oneLine s
  | .f64 x, b, _, h => by
    simp only [GoVal.json, Option.some.injEq] at h; subst h
    exact oneLine_tame (numeric_tame (jsonFloat_numeric x))
  | .f32 bits, b, _, h => by
    simp only [GoVal.json] at h
    exact oneLine_tame (numeric_tame (marshalF32_numeric h))
  | .time t, b, _, h => by
    simp only [GoVal.json] at h
    exact oneLine_tame (marshalTime_tame h)
  | .bytes x, b, _, h => by
    simp only [GoVal.json, Option.some.injEq] at h; subst h
    exact oneLine_tame (tame_append (tame_append (by decide) (base64_tame x)) (by decide))
  | .list vs, b, hok, h => by
    simp only [GoVal.json, Option.map_eq_some_iff] at h
    obtain ⟨es, h1, rfl⟩ := h
    exact oneLine_append (oneLine_append (oneLine_tame (by decide))
      (intercalate_oneLine (GoVal.jsonList_oneLine vs es hok h1))) (oneLine_tame (by decide))
  | .struct fs, b, hok, h => by
    simp only [GoVal.json, Option.map_eq_some_iff] at h
    obtain ⟨es, h1, rfl⟩ := h
    exact object_oneLine (GoVal.jsonFields_oneLine fs es hok h1)

theorem GoVal.jsonList_oneLine : ∀ (vs : List GoVal) (es : List Bytes), GoVal.OkList vs → GoVal.jsonList vs = some es →
    ∀ e ∈ es, OneLine e
  | [], es, _, h => by
    simp only [GoVal.jsonList, Option.some.injEq] at h; subst h
    simp
  | v :: vs, es, hok, h => by
    simp only [GoVal.jsonList] at h
    split at h
    · rename_i e es' h1 h2
      injection h with h; subst h
      intro x hx
      rcases List.mem_cons.mp hx with rfl | hx
      · exact GoVal.json_oneLine v _ hok.1 h1
      · exact GoVal.jsonList_oneLine vs es' hok.2 h2 x hx
    · cases h

theorem GoVal.jsonFields_oneLine : ∀ (fs : List (Bytes × GoVal)) (es : List (Bytes × Bytes)), GoVal.OkFields fs → GoVal.jsonFields fs = some es →
    ∀ e ∈ es, IsAscii e.1 ∧ OneLine e.2
  | [], es, _, h => by
    simp only [GoVal.jsonFields, Option.some.injEq] at h; subst h
    simp
  | (k, v) :: fs, es, hok, h => by
    simp only [GoVal.jsonFields] at h
    split at h
    · rename_i e es' h1 h2
      injection h with h; subst h
      intro x hx
      rcases List.mem_cons.mp hx with rfl | hx
      · exact ⟨hok.1, GoVal.json_oneLine v _ hok.2.1 h1⟩
      · exact GoVal.jsonFields_oneLine fs es' hok.2.2 h2 x hx
    · cases h
end

/-! Exponents. -/

theorem jsonPos_exp {f : ℚ} : 101 ∈ jsonPos f ↔ f < rnd (1 / 1000000) ∨ 1000000000000000000000 ≤ f := by
  unfold jsonPos shortest
  simp only
  split
  · rename_i h
    refine ⟨fun _ => h, fun _ => ?_⟩
    unfold fmtE
    simp
  · rename_i h
    refine ⟨fun hc => ?_, fun hc => absurd hc h⟩
    rcases fmtF_chars (shortest_chars _) 101 hc with h1 | h1 <;> exact absurd h1 (by decide)

theorem rnd_micro : 0 < rnd (1 / 1000000) := by
  obtain ⟨e, b, r⟩ := rnd_rel (1 / 1000000)
  rw [r]
  rw [pow2_m53, abs_le] at b
  have : 0 < 1 + e := by linarith [b.1]
  positivity

theorem jsonFloat_exp (f : ℚ) : 101 ∈ jsonFloat f ↔ f ≠ 0 ∧ (|f| < rnd (1 / 1000000) ∨ 1000000000000000000000 ≤ |f|) := by
  unfold jsonFloat
  split
  · rename_i h; subst h; simp
  · rename_i h
    split
    · rename_i hn
      rw [abs_of_neg hn, ← jsonPos_exp]
      simp [h]
    · rename_i hn
      rw [abs_of_nonneg (by linarith), ← jsonPos_exp]
      simp [h]

theorem jsonFloat_ne (f : ℚ) : jsonFloat f ≠ [] := by
  have hp : ∀ g, jsonPos g ≠ [] := by
    intro g
    unfold jsonPos
    simp only
    split
    · unfold fmtE; simp
    · unfold fmtF
      split
      · simp
      · rename_i hdp
        split
        · simp
        · rename_i hl
          intro h
          simp only [List.append_eq_nil_iff, List.replicate_eq_nil_iff] at h
          rw [h.1] at h
          simp only [List.length_nil] at h
          omega
  unfold jsonFloat
  split
  · simp
  · split
    · simp
    · exact hp f

/-! Bytes. -/

theorem enc_bytes {n : Nat} (hs : Scalar n) (h : Harmless n) : ∀ c ∈ enc n, 32 ≤ c ∧ c ≠ 60 ∧ c ≠ 62 ∧ c ≠ 38 := by
  obtain ⟨h1, h2, h3, h4, _⟩ := h
  unfold Scalar at hs
  have big : ∀ m : Nat, 128 ≤ m % 256 → 32 ≤ UInt8.ofNat m ∧ UInt8.ofNat m ≠ 60 ∧ UInt8.ofNat m ≠ 62 ∧ UInt8.ofNat m ≠ 38 := by
    intro m hm
    have e : (UInt8.ofNat m).toNat = m % 256 := UInt8.toNat_ofNat'
    refine ⟨by rw [UInt8.le_iff_toNat_le, e]; show 32 ≤ _; omega, ?_, ?_, ?_⟩ <;>
      (intro he; have := congrArg UInt8.toNat he; rw [e] at this; simp at this; omega)
  intro c hc
  unfold enc at hc
  split at hc
  · rename_i hn
    rw [List.mem_singleton] at hc
    subst hc
    have e : (UInt8.ofNat n).toNat = n := by rw [UInt8.toNat_ofNat']; exact Nat.mod_eq_of_lt (by omega)
    refine ⟨by rw [UInt8.le_iff_toNat_le, e]; exact h1, ?_, ?_, ?_⟩ <;>
      (intro he; have := congrArg UInt8.toNat he; rw [e] at this; simp at this; omega)
  · split at hc
    · simp only [List.mem_cons, List.not_mem_nil, or_false] at hc
      rcases hc with rfl | rfl <;> (apply big; omega)
    · split at hc
      · simp only [List.mem_cons, List.not_mem_nil, or_false] at hc
        rcases hc with rfl | rfl | rfl <;> (apply big; omega)
      · simp only [List.mem_cons, List.not_mem_nil, or_false] at hc
        rcases hc with rfl | rfl | rfl | rfl <;> (apply big; omega)

theorem enc_tail {n : Nat} : ∀ c ∈ (enc n).tail, c < 0xC0 := by
  have small : ∀ m : Nat, UInt8.ofNat (0x80 + m % 64) < 0xC0 := by
    intro m
    rw [UInt8.lt_iff_toNat_lt, UInt8.toNat_ofNat']
    show _ < 192
    omega
  intro c hc
  unfold enc at hc
  split at hc
  · simp at hc
  · split at hc
    · simp only [List.tail_cons, List.mem_cons, List.not_mem_nil, or_false] at hc
      subst hc; exact small _
    · split at hc
      · simp only [List.tail_cons, List.mem_cons, List.not_mem_nil, or_false] at hc
        rcases hc with rfl | rfl <;> exact small _
      · simp only [List.tail_cons, List.mem_cons, List.not_mem_nil, or_false] at hc
        rcases hc with rfl | rfl | rfl <;> exact small _

/-- A character that is not in a text is not in its bytes either. -/
theorem no_infix {m : Nat} {b : Bytes} {x : UInt8} {y : Bytes} (hm : Scalar m) (hb : enc m = b) (hx : b = x :: y) (h192 : ¬x < 0xC0) :
    ∀ ns : List Nat, (∀ n ∈ ns, Scalar n ∧ n ≠ m) → ¬b <:+: ns.flatMap enc := by
  intro ns
  induction ns with
  | nil =>
    rintro - ⟨s, t, h⟩
    rw [hx] at h
    simp at h
  | cons n ns ih =>
    rintro hns ⟨s, t, h⟩
    obtain ⟨hn, hne⟩ := hns n (List.mem_cons_self ..)
    rw [List.flatMap_cons, List.append_assoc] at h
    rcases Nat.lt_or_ge s.length (enc n).length with hl | hl
    · cases s with
      | nil =>
        rw [List.nil_append, ← hb] at h
        exact hne (enc_cancel hm hn h).1.symm
      | cons c s =>
        have e1 := congrArg (fun l => l[s.length + 1]?) h
        rw [hx] at e1
        simp only [List.cons_append, List.getElem?_cons_succ] at e1
        rw [List.getElem?_append_right (le_refl _), List.getElem?_append_left (by simpa using hl)] at e1
        simp only [Nat.sub_self, List.getElem?_cons_zero] at e1
        apply h192
        apply enc_tail (n := n)
        rw [List.mem_iff_getElem?]
        exact ⟨s.length, by rw [List.getElem?_tail]; exact e1.symm⟩
    · refine ih (fun k hk => hns k (List.mem_cons_of_mem _ hk)) ?_
      have e1 := congrArg (List.drop (enc n).length) h
      rw [List.drop_left, List.drop_append_of_le_length hl] at e1
      exact ⟨s.drop (enc n).length, t, by rw [← e1, List.append_assoc]⟩

end Egts
