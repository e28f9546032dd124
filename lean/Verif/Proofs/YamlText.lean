import Verif.Spec.YamlText

/-! # Reading the text of a configuration file -/

namespace Egts

/-! ## Lines -/

theorem splitLines_ne (text : Bytes) : splitLines text ≠ [] := by
  cases text with
  | nil => simp [splitLines]
  | cons c r =>
    unfold splitLines
    split
    · simp
    · split <;> simp

theorem splitLines_line (l : Bytes) (h : (10 : UInt8) ∉ l) : splitLines l = [l] := by
  induction l with
  | nil => rfl
  | cons c r ih =>
    rw [List.mem_cons, not_or] at h
    rw [splitLines, if_neg (fun hc => h.1 hc.symm), ih h.2]

theorem splitLines_append (l r : Bytes) (h : (10 : UInt8) ∉ l) : splitLines (l ++ 10 :: r) = l :: splitLines r := by
  induction l with
  | nil => rw [List.nil_append, splitLines, if_pos rfl]
  | cons c l ih =>
    rw [List.mem_cons, not_or] at h
    rw [List.cons_append, splitLines, if_neg (fun hc => h.1 hc.symm), ih h.2]

theorem splitLines_spec (text : Bytes) : HasLines text (splitLines text) := by
  induction text with
  | nil => exact ⟨by simp [splitLines], by simp [splitLines], rfl⟩
  | cons c r ih =>
    obtain ⟨h0, h1, h2⟩ := ih
    refine ⟨splitLines_ne _, ?_, ?_⟩
    · intro l hl
      unfold splitLines at hl
      split at hl
      · rcases List.mem_cons.mp hl with rfl | hl
        · simp
        · exact h1 l hl
      · rename_i hc
        split at hl
        · simp only [List.mem_singleton] at hl
          subst hl
          simpa using fun h => hc h.symm
        · rename_i a ls heq
          rw [heq] at h1
          rcases List.mem_cons.mp hl with rfl | hl
          · rw [List.mem_cons, not_or]
            exact ⟨fun h => hc h.symm, h1 a (by simp)⟩
          · exact h1 l (by simp [hl])
    · unfold splitLines
      cases hs : splitLines r with
      | nil => exact absurd hs h0
      | cons a ls =>
        rw [hs] at h2
        split
        · rename_i hc
          subst hc
          rw [h2]
          simp [List.intercalate, List.intersperse]
        · rw [h2]
          cases ls <;> simp [List.intercalate, List.intersperse]

theorem splitLines_of {text : Bytes} {lines : List Bytes} (h : HasLines text lines) : splitLines text = lines := by
  obtain ⟨h0, h1, rfl⟩ := h
  induction lines with
  | nil => exact absurd rfl h0
  | cons l ls ih =>
    cases ls with
    | nil => simpa [List.intercalate] using splitLines_line l (h1 l (by simp))
    | cons l' ls =>
      have : [(10 : UInt8)].intercalate (l :: l' :: ls) = l ++ 10 :: [(10 : UInt8)].intercalate (l' :: ls) := by
        simp [List.intercalate, List.intersperse]
      rw [this, splitLines_append _ _ (h1 l (by simp)), ih (by simp) (fun x hx => h1 x (by simp [hx]))]

/-- The characters of a text are line feeds and those of its lines. -/
theorem hasLines_chars {text : Bytes} {lines : List Bytes} (h : HasLines text lines) :
    text.all (fun c => c = 10 || (32 ≤ c && c ≤ 126)) = true ↔ ∀ l ∈ lines, Printable l := by
  obtain ⟨h0, h1, rfl⟩ := h
  have h32 : ∀ c : UInt8, (c = 10 || (32 ≤ c && c ≤ 126)) = true ↔ c = 10 ∨ (32 ≤ c.toNat ∧ c.toNat ≤ 126) := by
    intro c
    simp [UInt8.le_iff_toNat_le]
  have hline : ∀ l : Bytes, (10 : UInt8) ∉ l → (l.all (fun c => c = 10 || (32 ≤ c && c ≤ 126)) = true ↔ Printable l) := by
    intro l hl
    rw [List.all_eq_true]
    refine ⟨fun h c hc => ?_, fun h c hc => (h32 c).mpr (.inr (h c hc))⟩
    rcases (h32 c).mp (h c hc) with rfl | h
    · exact absurd hc hl
    · exact h
  clear h0
  induction lines with
  | nil => simp [List.intercalate]
  | cons l ls ih =>
    have hl := hline l (h1 l (by simp))
    cases ls with
    | nil => simpa [List.intercalate] using hl
    | cons l' ls =>
      have : [(10 : UInt8)].intercalate (l :: l' :: ls) = l ++ 10 :: [(10 : UInt8)].intercalate (l' :: ls) := by
        simp [List.intercalate, List.intersperse]
      have ih' := ih (fun x hx => h1 x (List.mem_cons_of_mem _ hx))
      rw [this, List.all_append, List.all_cons, Bool.and_eq_true, Bool.and_eq_true, List.forall_mem_cons (l := l' :: ls)]
      exact and_congr hl ⟨fun h => ih'.mp h.2, fun h => ⟨rfl, ih'.mpr h⟩⟩

/-! ## Values -/

theorem reserved_iff (w : Bytes) : w ∈ yamlReserved ↔ Reserved w := by
  simp only [yamlReserved, Reserved, List.mem_cons, List.not_mem_nil, or_false]

theorem yamlScalar_iff (text : Bytes) (v : Yaml) : yamlScalar text = some v ↔ ValueText text v := by
  constructor
  · intro h
    unfold yamlScalar at h
    split at h
    · cases h
    · rename_i r
      split at h
      · rename_i hr
        cases h
        obtain ⟨g1, g2, g3⟩ := hr
        have : r = r.dropLast ++ [34] := by
          obtain ⟨ys, hys⟩ := List.getLast?_eq_some_iff.mp g1
          rw [hys]; simp
        have h34 : (34 :: r : Bytes) = go!"\"" ++ r.dropLast ++ go!"\"" := by
          conv_lhs => rw [this]
          rfl
        rw [h34]
        exact .quoted _ (fun c hc => ⟨fun h => g2 (h ▸ hc), fun h => g3 (h ▸ hc)⟩)
      · cases h
    · rename_i c r _
      split at h
      · rename_i hd
        split at h
        · rename_i hz
          cases h
          refine .number _ _ ⟨⟨by simp, ?_, rfl⟩, ?_⟩ ?_
          · intro x hx
            have := List.all_eq_true.mp hd x hx
            simpa using this
          · intro h0
            simp only [List.head?_cons, Option.some.injEq] at h0
            rw [h0, hz.1 h0]
          · have := hz.2
            simp only [List.length_cons]
            omega
        · cases h
      · split at h
        · rename_i hw
          cases h
          refine .word _ (by simp) ?_ (fun hr => hw.2 ((reserved_iff _).mpr hr))
          intro x hx
          have := List.all_eq_true.mp hw.1 x hx
          simp only [Bool.and_eq_true, decide_eq_true_eq, UInt8.le_iff_toNat_le] at this
          simpa using this
        · cases h
  · intro h
    cases h with
    | quoted s h =>
      show yamlScalar (34 :: (s ++ [34])) = _
      simp only [yamlScalar]
      rw [if_pos]
      · simp
      · simp only [List.getLast?_append, List.getLast?_singleton, List.dropLast_concat]
        exact ⟨by simp, fun hc => (h _ hc).1 rfl, fun hc => (h _ hc).2 rfl⟩
    | word s h0 h hr =>
      cases text with
      | nil => exact absurd rfl h0
      | cons c r =>
        have hc := h c (by simp)
        have hc34 : c ≠ 34 := by rintro rfl; simp at hc
        unfold yamlScalar
        split
        · rename_i heq; cases heq
        · rename_i heq; cases heq; exact absurd rfl hc34
        · rename_i heq
          cases heq
          rw [if_neg, if_pos]
          · refine ⟨List.all_eq_true.mpr fun x hx => ?_, fun hm => hr ((reserved_iff _).mp hm)⟩
            have := h x hx
            simp only [Bool.and_eq_true, decide_eq_true_eq, UInt8.le_iff_toNat_le]
            simpa using this
          · intro hall
            have := List.all_eq_true.mp hall c (by simp)
            simp only [Bool.and_eq_true, decide_eq_true_eq, UInt8.le_iff_toNat_le] at this
            have h2 := this.2
            simp at h2
            omega
    | number s n h hl =>
      obtain ⟨⟨h0, h1, h2⟩, h3⟩ := h
      cases text with
      | nil => exact absurd rfl h0
      | cons c r =>
        have hc := h1 c (by simp)
        have hc34 : c ≠ 34 := by rintro rfl; exact absurd hc.1 (by decide)
        unfold yamlScalar
        split
        · rename_i heq; cases heq
        · rename_i heq; cases heq; exact absurd rfl hc34
        · rename_i heq
          cases heq
          rw [if_pos, if_pos]
          · rw [h2]
          · refine ⟨fun h => ?_, by simp only [List.length_cons] at hl; omega⟩
            have := h3 (by simp [h])
            simpa [h] using this
          · exact List.all_eq_true.mpr fun x hx => by simpa using h1 x hx

/-! ## A line -/

theorem takeWhile_spaces (n : Nat) (r : Bytes) (h : r.head? ≠ some 32) : (spaces n ++ r).takeWhile (· = 32) = spaces n ∧
    (spaces n ++ r).dropWhile (· = 32) = r := by
  induction n with
  | zero =>
    cases r with
    | nil => exact ⟨rfl, rfl⟩
    | cons c r =>
      have : c ≠ 32 := fun hc => h (by simp [hc])
      simp [spaces, this]
  | succ n ih =>
    have : spaces (n + 1) = 32 :: spaces n := rfl
    rw [this, List.cons_append, List.takeWhile_cons_of_pos (by simp), List.dropWhile_cons_of_pos (by simp), ih.1, ih.2]
    exact ⟨rfl, rfl⟩

theorem takeWhile_spaces_eq (l : Bytes) : ∃ n, l.takeWhile (· = 32) = spaces n := by
  induction l with
  | nil => exact ⟨0, rfl⟩
  | cons c r ih =>
    by_cases h : c = 32
    · obtain ⟨n, hn⟩ := ih
      refine ⟨n + 1, ?_⟩
      rw [List.takeWhile_cons_of_pos (by simpa using h), hn, h]
      rfl
    · exact ⟨0, by rw [List.takeWhile_cons_of_neg (by simpa using h)]; rfl⟩

theorem keyChar_iff (c : UInt8) : yamlKeyChar c = true ↔ 97 ≤ c.toNat ∧ c.toNat ≤ 122 ∨ c = 95 := by
  simp [yamlKeyChar, UInt8.le_iff_toNat_le]

theorem takeWhile_key (key r : Bytes) (hk : KeyName key) (hr : r.head? = some 58) :
    (key ++ r).takeWhile yamlKeyChar = key ∧ (key ++ r).dropWhile yamlKeyChar = r := by
  have hall : ∀ c ∈ key, yamlKeyChar c = true := fun c hc => (keyChar_iff c).mpr (hk.2.1 c hc)
  have h0 : r.takeWhile yamlKeyChar = [] ∧ r.dropWhile yamlKeyChar = r := by
    cases r with
    | nil => cases hr
    | cons c r =>
      cases hr
      exact ⟨rfl, rfl⟩
  constructor
  · rw [List.takeWhile_append_of_pos hall, h0.1, List.append_nil]
  · rw [List.dropWhile_append_of_pos hall, h0.2]

theorem mem_takeWhile_pos {p : UInt8 → Bool} {c : UInt8} {l : Bytes} (h : c ∈ l.takeWhile p) : p c = true := by
  induction l with
  | nil => cases h
  | cons x l ih =>
    by_cases hx : p x = true
    · rw [List.takeWhile_cons_of_pos hx] at h
      rcases List.mem_cons.mp h with rfl | h
      · exact hx
      · exact ih h
    · rw [List.takeWhile_cons_of_neg hx] at h
      cases h

/-- Lines that contribute something. -/
def EntryText (l : Bytes) (n : Nat) (key : Bytes) (v : Option Yaml) : Prop :=
  KeyName key ∧ (v = none ∧ l = spaces n ++ key ++ go!":" ∨ ∃ text y, v = some y ∧ ValueText text y ∧ l = spaces n ++ key ++ go!": " ++ text)

/-- Lines that do not. -/
def BlankText (l : Bytes) : Prop := (∃ k, l = spaces k) ∨ ∃ k c, l = spaces k ++ go!"#" ++ c

theorem yamlLine_blank {l : Bytes} (h : BlankText l) : yamlLine l = some .blank := by
  rcases h with ⟨k, rfl⟩ | ⟨k, c, rfl⟩
  · have := takeWhile_spaces k [] (by simp)
    rw [List.append_nil] at this
    simp [yamlLine, this.2]
  · have := takeWhile_spaces k (35 :: c) (by simp)
    have h35 : spaces k ++ go!"#" ++ c = spaces k ++ 35 :: c := by simp
    rw [h35]
    simp [yamlLine, this.2]

theorem key_head {key : Bytes} (hk : KeyName key) (r : Bytes) : (key ++ r).head? ≠ some 32 ∧ (key ++ r).head? ≠ some 35 ∧ key ++ r ≠ [] := by
  obtain ⟨h0, h1, _⟩ := hk
  cases key with
  | nil => exact absurd rfl h0
  | cons c key =>
    have := h1 c (by simp)
    refine ⟨?_, ?_, by simp⟩
    · intro h
      simp only [List.cons_append, List.head?_cons, Option.some.injEq] at h
      subst h
      simp at this
    · intro h
      simp only [List.cons_append, List.head?_cons, Option.some.injEq] at h
      subst h
      simp at this

theorem yamlLine_entry {l : Bytes} {n : Nat} {key : Bytes} {v : Option Yaml} (h : EntryText l n key v) :
    yamlLine l = some (.entry n key v) := by
  obtain ⟨hk, h⟩ := h
  have hlen : (spaces n).length = n := by simp [spaces]
  have hres : ¬ (key = [] ∨ key ∈ yamlReserved) := by
    rw [reserved_iff]
    exact fun h => h.elim hk.1 hk.2.2
  rcases h with ⟨rfl, rfl⟩ | ⟨text, y, rfl, hv, rfl⟩
  · obtain ⟨k1, k2, k3⟩ := key_head hk [58]
    have h1 := takeWhile_spaces n (key ++ [58]) k1
    have h2 := takeWhile_key key [58] hk rfl
    unfold yamlLine
    rw [List.append_assoc, h1.1, h1.2, hlen]
    simp only
    rw [if_neg (not_or.mpr ⟨k3, k2⟩), h2.1, h2.2, if_neg hres]
    rfl
  · obtain ⟨k1, k2, k3⟩ := key_head hk (58 :: 32 :: text)
    have h1 := takeWhile_spaces n (key ++ 58 :: 32 :: text) k1
    have h2 := takeWhile_key key (58 :: 32 :: text) hk rfl
    have he : spaces n ++ key ++ go!": " ++ text = spaces n ++ (key ++ 58 :: 32 :: text) := by simp
    unfold yamlLine
    rw [he, h1.1, h1.2, hlen]
    simp only
    rw [if_neg (not_or.mpr ⟨k3, k2⟩), h2.1, h2.2, if_neg hres]
    simp only
    rw [(yamlScalar_iff text y).mpr hv]

theorem yamlLine_inv {l : Bytes} {x : YamlLine} (h : yamlLine l = some x) :
    x = .blank ∧ BlankText l ∨ ∃ n key v, x = .entry n key v ∧ EntryText l n key v := by
  obtain ⟨n, hn⟩ := takeWhile_spaces_eq l
  have hl : l = spaces n ++ l.dropWhile (· = 32) := by
    conv_lhs => rw [← List.takeWhile_append_dropWhile (p := (· = 32)) (l := l), hn]
  have hlen : (spaces n).length = n := by simp [spaces]
  unfold yamlLine at h
  rw [hn, hlen] at h
  simp only at h
  generalize l.dropWhile (· = 32) = r at h hl
  split at h
  · rename_i hr
    cases h
    refine .inl ⟨rfl, ?_⟩
    rcases hr with hr | hr
    · exact .inl ⟨n, by rw [hl, hr, List.append_nil]⟩
    · cases r with
      | nil => cases hr
      | cons c r =>
        simp only [List.head?_cons, Option.some.injEq] at hr
        exact .inr ⟨n, r, by rw [hl, hr]; simp⟩
  · split at h
    · cases h
    · rename_i hk
      rw [reserved_iff, not_or] at hk
      have hkey : KeyName (r.takeWhile yamlKeyChar) :=
        ⟨hk.1, fun c hc => (keyChar_iff c).mp (mem_takeWhile_pos hc), hk.2⟩
      have hr := List.takeWhile_append_dropWhile (p := yamlKeyChar) (l := r)
      split at h
      · rename_i hd
        cases h
        refine .inr ⟨_, _, _, rfl, hkey, .inl ⟨rfl, ?_⟩⟩
        rw [hl, List.append_assoc]
        conv_lhs => rw [← hr, hd]
      · rename_i text hd
        split at h
        · rename_i y hy
          cases h
          refine .inr ⟨_, _, _, rfl, hkey, .inr ⟨text, y, rfl, (yamlScalar_iff _ _).mp hy, ?_⟩⟩
          rw [hl]
          conv_lhs => rw [← hr, hd]
          simp
        · cases h
      · cases h

/-! ## Nesting -/

theorem yamlLines_append (a b : List Bytes) : yamlLines (a ++ b) =
    match yamlLines a, yamlLines b with
    | some x, some y => some (x ++ y)
    | _, _ => none := by
  induction a with
  | nil =>
    rw [List.nil_append]
    cases h : yamlLines b <;> simp [yamlLines]
  | cons l a ih =>
    rw [List.cons_append, yamlLines, yamlLines, ih]
    cases yamlLine l with
    | none => cases yamlLines a <;> simp
    | some x => cases x <;> cases yamlLines a <;> cases yamlLines b <;> simp

/-- Entries at one level of indentation. -/
def atLevel (n : Nat) (ms : List (Bytes × Yaml)) : List (Nat × Bytes × Yaml) := ms.map fun m => (n, m)

theorem atLevel_snd (n : Nat) (ms : List (Bytes × Yaml)) : (atLevel n ms).map (·.2) = ms := by
  simp [atLevel, Function.comp_def]

theorem below_level (n m : Nat) (hm : n < m) (kids : List (Bytes × Yaml)) (es : List (Nat × Bytes × Yaml)) (he : ∀ e ∈ es.head?, e.1 ≤ n) :
    (atLevel m kids ++ es).takeWhile (fun e => n < e.1) = atLevel m kids ∧ (atLevel m kids ++ es).dropWhile (fun e => n < e.1) = es := by
  have hall : ∀ e ∈ atLevel m kids, (fun e : Nat × Bytes × Yaml => decide (n < e.1)) e = true := by
    intro e h
    simp only [atLevel, List.mem_map] at h
    obtain ⟨k, _, rfl⟩ := h
    simpa using hm
  have h0 : es.takeWhile (fun e => n < e.1) = [] ∧ es.dropWhile (fun e => n < e.1) = es := by
    cases es with
    | nil => exact ⟨rfl, rfl⟩
    | cons e es =>
      have := he e (by simp)
      simp [this]
  exact ⟨by rw [List.takeWhile_append_of_pos hall, h0.1, List.append_nil], by rw [List.dropWhile_append_of_pos hall, h0.2]⟩

theorem nothing_below (n : Nat) (es : List (Nat × Bytes × Yaml)) (he : ∀ e ∈ es.head?, e.1 ≤ n) :
    es.takeWhile (fun e => n < e.1) = [] ∧ es.dropWhile (fun e => n < e.1) = es := by
  have := below_level n (n + 1) (by omega) [] es he
  simpa [atLevel] using this

theorem head_atLevel (n : Nat) (ms : List (Bytes × Yaml)) (es : List (Nat × Bytes × Yaml)) (he : ∀ e ∈ es.head?, e.1 ≤ n) :
    ∀ e ∈ (atLevel n ms ++ es).head?, e.1 ≤ n := by
  cases ms with
  | nil => simpa [atLevel] using he
  | cons m ms => simp [atLevel]

/-- What the lines say is what is read. -/
theorem says_build {n : Nat} {ls : List Bytes} {ms : List (Bytes × Yaml)} (h : Says n ls ms) :
    ∃ ts, yamlLines ls = some ts ∧ ∀ ts' es, yamlBuild ts' = some es → (∀ e ∈ es.head?, e.1 ≤ n) →
      yamlBuild (ts ++ ts') = some (atLevel n ms ++ es) := by
  induction h with
  | nil n => exact ⟨[], rfl, fun ts' es h _ => by simpa [atLevel] using h⟩
  | blank n k ls ms h ih =>
    obtain ⟨ts, h1, h2⟩ := ih
    exact ⟨ts, by rw [yamlLines, yamlLine_blank (.inl ⟨k, rfl⟩), h1], h2⟩
  | comment n k c ls ms h ih =>
    obtain ⟨ts, h1, h2⟩ := ih
    exact ⟨ts, by rw [yamlLines, yamlLine_blank (.inr ⟨k, c, rfl⟩), h1], h2⟩
  | value n key text v ls ms hk hv h ih =>
    obtain ⟨ts, h1, h2⟩ := ih
    refine ⟨(n, key, some v) :: ts, by rw [yamlLines, yamlLine_entry ⟨hk, .inr ⟨text, v, rfl, hv, rfl⟩⟩, h1], fun ts' es he hh => ?_⟩
    obtain ⟨g1, g2⟩ := nothing_below n _ (head_atLevel n ms es hh)
    rw [List.cons_append, yamlBuild, h2 ts' es he hh]
    simp only [g1, g2]
    rfl
  | nothing n key ls ms hk h ih =>
    obtain ⟨ts, h1, h2⟩ := ih
    refine ⟨(n, key, none) :: ts, by rw [yamlLines, yamlLine_entry ⟨hk, .inl ⟨rfl, rfl⟩⟩, h1], fun ts' es he hh => ?_⟩
    obtain ⟨g1, g2⟩ := nothing_below n _ (head_atLevel n ms es hh)
    rw [List.cons_append, yamlBuild, h2 ts' es he hh]
    simp only [g1, g2]
    rfl
  | block n m key sub ls kids ms hk hm h0 hs h ih1 ih2 =>
    obtain ⟨ts1, h1, h2⟩ := ih1
    obtain ⟨ts2, h3, h4⟩ := ih2
    refine ⟨(n, key, none) :: (ts1 ++ ts2), by rw [yamlLines, yamlLine_entry ⟨hk, .inl ⟨rfl, rfl⟩⟩, yamlLines_append, h1, h3], fun ts' es he hh => ?_⟩
    have hh' := head_atLevel n ms es hh
    have hb := h2 _ _ (h4 ts' es he hh) (fun e he' => Nat.le_trans (hh' e he') (Nat.le_of_lt hm))
    obtain ⟨g1, g2⟩ := below_level n m hm kids _ hh'
    rw [List.cons_append, List.append_assoc, yamlBuild, hb]
    simp only [g1, g2]
    cases kids with
    | nil => exact absurd rfl h0
    | cons k kids =>
      have hsnd := atLevel_snd m (k :: kids)
      have hcons : atLevel m (k :: kids) = (m, k) :: atLevel m kids := rfl
      rw [hcons] at hsnd ⊢
      simp only
      rw [if_pos (List.all_eq_true.mpr fun x hx => by
        simp only [atLevel, List.mem_map] at hx
        obtain ⟨y, _, rfl⟩ := hx
        simp), hsnd]
      rfl

theorem Says.append {n : Nat} {a : List Bytes} {x : List (Bytes × Yaml)} (h : Says n a x) {b : List Bytes} {y : List (Bytes × Yaml)}
    (h' : Says n b y) : Says n (a ++ b) (x ++ y) := by
  induction h with
  | nil n => simpa using h'
  | blank n k ls ms h ih => exact .blank n k _ _ (ih h')
  | comment n k c ls ms h ih => exact .comment n k c _ _ (ih h')
  | value n key text v ls ms hk hv h ih => exact .value n key text v _ _ hk hv (ih h')
  | nothing n key ls ms hk h ih => exact .nothing n key _ _ hk (ih h')
  | block n m key sub ls kids ms hk hm h0 hs h ih1 ih2 =>
    have : (spaces n ++ key ++ go!":") :: (sub ++ ls) ++ b = (spaces n ++ key ++ go!":") :: (sub ++ (ls ++ b)) := by simp
    rw [this]
    exact .block n m key sub _ kids _ hk hm h0 hs (ih2 h')

/-- Lines, cut into pieces that say one entry each. -/
inductive Pieces : List Bytes → List (Nat × Bytes × Yaml) → Prop
  | nil (ls : List Bytes) (h : ∀ n, Says n ls []) : Pieces ls []
  | cons (a ls : List Bytes) (e : Nat × Bytes × Yaml) (es : List (Nat × Bytes × Yaml)) (he : Says e.1 a [e.2]) (h : Pieces ls es) :
      Pieces (a ++ ls) (e :: es)

theorem Pieces.blank {ls : List Bytes} {es : List (Nat × Bytes × Yaml)} (h : Pieces ls es) {l : Bytes} (hl : BlankText l) :
    Pieces (l :: ls) es := by
  have hb : ∀ n ls ms, Says n ls ms → Says n (l :: ls) ms := by
    intro n ls ms h
    rcases hl with ⟨k, rfl⟩ | ⟨k, c, rfl⟩
    · exact .blank n k _ _ h
    · exact .comment n k c _ _ h
  cases h with
  | nil _ h => exact .nil _ fun n => hb n _ _ (h n)
  | cons a ls e es he h => exact .cons (l :: a) ls e es (hb _ _ _ he) h

theorem Pieces.split {ls : List Bytes} (es₁ es₂ : List (Nat × Bytes × Yaml)) (h : Pieces ls (es₁ ++ es₂)) :
    ∃ a b, ls = a ++ b ∧ Pieces a es₁ ∧ Pieces b es₂ := by
  induction es₁ generalizing ls with
  | nil => exact ⟨[], ls, rfl, .nil _ fun n => .nil n, h⟩
  | cons e es₁ ih =>
    cases h with
    | cons a ls e _ he h =>
      obtain ⟨b, c, rfl, hb, hc⟩ := ih h
      exact ⟨a ++ b, c, by simp, .cons _ _ _ _ he hb, hc⟩

theorem Pieces.says {ls : List Bytes} {es : List (Nat × Bytes × Yaml)} (h : Pieces ls es) (n : Nat) (hn : ∀ e ∈ es, e.1 = n) :
    Says n ls (es.map (·.2)) := by
  induction h with
  | nil ls h => exact h n
  | cons a ls e es he h ih =>
    have := hn e (by simp)
    rw [this] at he
    exact he.append (ih fun x hx => hn x (by simp [hx]))

/-- What is read is what the lines say. -/
theorem build_pieces (ls : List Bytes) (ts : List (Nat × Bytes × Option Yaml)) (es : List (Nat × Bytes × Yaml))
    (h : yamlLines ls = some ts) (hb : yamlBuild ts = some es) : Pieces ls es := by
  induction ls generalizing ts es with
  | nil =>
    cases h
    cases hb
    exact .nil _ fun n => .nil n
  | cons l ls ih =>
    rw [yamlLines] at h
    cases hl : yamlLine l with
    | none => rw [hl] at h; cases h
    | some x =>
      cases hs : yamlLines ls with
      | none => rw [hl, hs] at h; cases x <;> cases h
      | some ts' =>
        rw [hl, hs] at h
        rcases yamlLine_inv hl with ⟨rfl, hx⟩ | ⟨n, key, v, rfl, hk, hx⟩
        · cases h
          exact (ih _ _ hs hb).blank hx
        · cases h
          rw [yamlBuild] at hb
          cases hes : yamlBuild ts' with
          | none => rw [hes] at hb; cases hb
          | some es' =>
            rw [hes] at hb
            simp only at hb
            have hp := ih _ _ hs hes
            have happ := List.takeWhile_append_dropWhile (p := fun e : Nat × Bytes × Yaml => decide (n < e.1)) (l := es')
            rw [← happ] at hp
            obtain ⟨a, b, rfl, ha, hb'⟩ := hp.split
            have hbelow : ∀ e ∈ es'.takeWhile (fun e => n < e.1), n < e.1 := by
              intro e he
              have : ∀ (l : List (Nat × Bytes × Yaml)), e ∈ l.takeWhile (fun e => n < e.1) → n < e.1 := by
                intro l
                induction l with
                | nil => simp
                | cons x l ih =>
                  by_cases hx : n < x.1
                  · rw [List.takeWhile_cons_of_pos (by simpa using hx)]
                    intro h
                    rcases List.mem_cons.mp h with rfl | h
                    · exact hx
                    · exact ih h
                  · rw [List.takeWhile_cons_of_neg (by simpa using hx)]
                    simp
              exact this _ he
            generalize es'.takeWhile (fun e => n < e.1) = below at *
            generalize es'.dropWhile (fun e => n < e.1) = rest at *
            cases v with
            | some v =>
              cases below with
              | nil =>
                cases hb
                obtain ⟨h, -⟩ | ⟨text, y, hy, hv, rfl⟩ := hx
                · cases h
                · cases hy
                  cases ha with
                  | nil _ ha =>
                    exact .cons (_ :: a) b (n, key, v) rest (.value n key text v a [] hk hv (ha n)) hb'
              | cons => cases hb
            | none =>
              have hx : l = spaces n ++ key ++ go!":" := by
                rcases hx with ⟨_, h⟩ | ⟨_, _, h, _⟩
                · exact h
                · cases h
              subst hx
              cases below with
              | nil =>
                cases hb
                cases ha with
                | nil _ ha => exact .cons (_ :: a) b (n, key, .null) rest (.nothing n key a [] hk (ha n)) hb'
              | cons e es =>
                simp only at hb
                split at hb
                · rename_i hall
                  cases hb
                  have hs := ha.says e.1 (by
                    intro x hx
                    rcases List.mem_cons.mp hx with rfl | hx
                    · rfl
                    · simpa using List.all_eq_true.mp hall x hx)
                  have := Says.block n e.1 key a [] _ [] hk (hbelow e (by simp)) (by simp) hs (.nil n)
                  rw [List.append_nil] at this
                  exact .cons (_ :: a) b (n, key, _) rest this hb'
                · cases hb

/-- The texts that are read, and what they are read as. -/
theorem yamlRead_iff (text : Bytes) (v : Yaml) : yamlRead text = some v ↔
    ∃ lines ms, HasLines text lines ∧ (∀ l ∈ lines, Printable l) ∧ Says 0 lines ms ∧ v = if ms = [] then .null else .map ms := by
  constructor
  · intro h
    have hl := splitLines_spec text
    unfold yamlRead at h
    split at h
    · rename_i hc
      have hp := (hasLines_chars hl).mp hc
      cases hs : yamlLines (splitLines text) with
      | none => rw [hs] at h; cases h
      | some ts =>
        rw [hs] at h
        simp only at h
        cases hb : yamlBuild ts with
        | none => rw [hb] at h; cases h
        | some es =>
          rw [hb] at h
          have hpc := build_pieces _ _ _ hs hb
          cases es with
          | nil =>
            cases h
            exact ⟨_, [], hl, hp, hpc.says 0 (by simp), by simp⟩
          | cons e es =>
            simp only at h
            split at h
            · rename_i hall
              cases h
              exact ⟨_, _, hl, hp, hpc.says 0 (fun x hx => by simpa using List.all_eq_true.mp hall x hx), by simp⟩
            · cases h
    · cases h
  · rintro ⟨lines, ms, hl, hp, hs, rfl⟩
    obtain ⟨ts, h1, h2⟩ := says_build hs
    have h3 := h2 [] [] rfl (by simp)
    rw [List.append_nil, List.append_nil] at h3
    unfold yamlRead
    rw [if_pos ((hasLines_chars hl).mpr hp), splitLines_of hl, h1]
    simp only [h3]
    cases ms with
    | nil => rfl
    | cons m ms =>
      have hcons : atLevel 0 (m :: ms) = (0, m) :: atLevel 0 ms := rfl
      have hsnd := atLevel_snd 0 (m :: ms)
      rw [hcons] at hsnd ⊢
      simp only
      rw [if_pos (List.all_eq_true.mpr fun x hx => by
        rw [← hcons] at hx
        simp only [atLevel, List.mem_map] at hx
        obtain ⟨y, _, rfl⟩ := hx
        simp), hsnd]
      simp

end Egts
