import Verif.Spec.Dsn
import Verif.Proofs.GoLemmas

/-! # Connection strings are read back -/

namespace Egts

/-! ## PostgreSQL -/

theorem pqBare_end (v : Bytes) (h : ∀ c ∈ v, isSpace c = false ∧ c ≠ 92) : pqBare v = some (v, []) := by
  induction v with
  | nil => rfl
  | cons c v ih =>
    obtain ⟨h1, h2⟩ := h c (by simp)
    cases v with
    | nil => simp [pqBare, h1, h2]
    | cons d v => rw [pqBare, if_neg (by simp [h1]), if_neg h2, ih fun x hx => h x (by simp [hx])]; rfl

theorem pqBare_space (v r : Bytes) (h : ∀ c ∈ v, isSpace c = false ∧ c ≠ 92) : pqBare (v ++ 32 :: r) = some (v, r) := by
  induction v with
  | nil =>
    cases r with
    | nil => simp [pqBare, isSpace]
    | cons d r => simp [pqBare, isSpace]
  | cons c v ih =>
    obtain ⟨h1, h2⟩ := h c (by simp)
    have ih := ih fun x hx => h x (by simp [hx])
    cases v with
    | nil =>
      rw [List.nil_append] at ih
      rw [List.cons_append, List.nil_append, pqBare, if_neg (by simp [h1]), if_neg h2, ih]; rfl
    | cons d v =>
      rw [List.cons_append] at ih
      rw [List.cons_append, List.cons_append, pqBare, if_neg (by simp [h1]), if_neg h2, ih]; rfl

/-- A keyword. -/
def PqKey (k : Bytes) : Prop := k ≠ [] ∧ ∀ c ∈ k, (!isSpace c && c != 61) = true

theorem span_all {p : UInt8 → Bool} (k r : Bytes) (h : ∀ c ∈ k, p c = true) (x : UInt8) (hx : p x = false) :
    (k ++ x :: r).takeWhile p = k ∧ (k ++ x :: r).dropWhile p = x :: r := by
  constructor
  · rw [List.takeWhile_append_of_pos h, List.takeWhile_cons_of_neg (by simp [hx]), List.append_nil]
  · rw [List.dropWhile_append_of_pos h, List.dropWhile_cons_of_neg (by simp [hx])]

theorem drop_spaces (k r : Bytes) (hk : PqKey k) : (k ++ r).dropWhile isSpace = k ++ r := by
  obtain ⟨h0, h⟩ := hk
  cases k with
  | nil => exact absurd rfl h0
  | cons c k =>
    have := h c (by simp)
    rw [List.cons_append, List.dropWhile_cons_of_neg]
    intro h; simp [h] at this

theorem pqRead_value (n : Nat) (k v r : Bytes) (hk : PqKey k) (hv : PlainPg v) :
    pqRead (n + 1) (k ++ 61 :: (v ++ 32 :: r)) = (pqRead n r).map ((k, v) :: ·) := by
  obtain ⟨h1, h2, h3⟩ := hv
  have hs := span_all k (v ++ 32 :: r) hk.2 61 (by decide)
  cases v with
  | nil => exact absurd rfl h1
  | cons c v =>
    have hc := h3 c (by simp)
    rw [pqRead]
    simp only [drop_spaces k _ hk, hs.1, hs.2]
    rw [if_neg (by simp), List.dropWhile_cons_of_neg (by decide)]
    simp only [List.cons_append]
    rw [List.dropWhile_cons_of_neg (by simp [hc.1])]
    simp only
    rw [if_neg (by intro h; subst h; exact h2 rfl), ← List.cons_append, pqBare_space (c :: v) r h3]

theorem pqRead_last (n : Nat) (k v : Bytes) (hk : PqKey k) (hv : v = [] ∨ PlainPg v) :
    pqRead (n + 2) (k ++ 61 :: v) = some [(k, v)] := by
  have hs := span_all k v hk.2 61 (by decide)
  cases v with
  | nil =>
    rw [pqRead]
    simp only [drop_spaces k _ hk, hs.1, hs.2]
    rw [if_neg (by simp), List.dropWhile_cons_of_neg (by decide)]
    rfl
  | cons c v =>
    obtain ⟨h1, h2, h3⟩ := hv.resolve_left (by simp)
    have hc := h3 c (by simp)
    rw [pqRead]
    simp only [drop_spaces k _ hk, hs.1, hs.2]
    rw [if_neg (by simp), List.dropWhile_cons_of_neg (by decide)]
    simp only
    rw [List.dropWhile_cons_of_neg (by simp [hc.1])]
    simp only
    rw [if_neg (by intro h; subst h; exact h2 rfl), pqBare_end (c :: v) h3]
    rfl

theorem pqSettings_pgDsn (c : List (Bytes × Bytes))
    (h : ∀ key ∈ [go!"database", go!"host", go!"port", go!"user", go!"password"], PlainPg (setting c key))
    (hs : setting c (go!"sslmode") = [] ∨ PlainPg (setting c (go!"sslmode"))) :
    pqSettings (pgDsn c) = some [(go!"dbname", setting c (go!"database")), (go!"host", setting c (go!"host")), (go!"port", setting c (go!"port")),
      (go!"user", setting c (go!"user")), (go!"password", setting c (go!"password")), (go!"sslmode", setting c (go!"sslmode"))] := by
  have e : pgDsn c = go!"dbname" ++ 61 :: (setting c (go!"database") ++ 32 :: (go!"host" ++ 61 :: (setting c (go!"host") ++ 32 ::
      (go!"port" ++ 61 :: (setting c (go!"port") ++ 32 :: (go!"user" ++ 61 :: (setting c (go!"user") ++ 32 ::
      (go!"password" ++ 61 :: (setting c (go!"password") ++ 32 :: (go!"sslmode" ++ 61 :: setting c (go!"sslmode"))))))))))) := by
    simp [pgDsn]
  have hl : ∃ n, (pgDsn c).length + 1 = n + 2 + 1 + 1 + 1 + 1 + 1 := by
    refine ⟨(pgDsn c).length - 6, ?_⟩
    have : 6 ≤ (pgDsn c).length := by rw [e]; simp only [List.length_append, List.length_cons]; omega
    omega
  obtain ⟨n, hn⟩ := hl
  have hk : ∀ k ∈ [go!"dbname", go!"host", go!"port", go!"user", go!"password", go!"sslmode"], PqKey k := by
    unfold PqKey; decide
  rw [pqSettings, hn, e, pqRead_value _ _ _ _ (hk _ (by simp)) (h _ (by simp)), pqRead_value _ _ _ _ (hk _ (by simp)) (h _ (by simp)),
    pqRead_value _ _ _ _ (hk _ (by simp)) (h _ (by simp)), pqRead_value _ _ _ _ (hk _ (by simp)) (h _ (by simp)),
    pqRead_value _ _ _ _ (hk _ (by simp)) (h _ (by simp)), pqRead_last _ _ _ (hk _ (by simp)) hs]
  rfl

/-! ## RabbitMQ -/

theorem splitLast_mk (sep : UInt8) (a b : Bytes) (hb : sep ∉ b) : splitLast sep (a ++ sep :: b) = some (a, b) := by
  have h1 : (a ++ sep :: b).contains sep = true := by simp
  have h2 : (a ++ sep :: b).reverse.takeWhile (· != sep) = b.reverse := by
    have : (a ++ sep :: b).reverse = b.reverse ++ sep :: a.reverse := by simp
    rw [this]
    refine (span_all b.reverse a.reverse ?_ sep (by simp)).1
    intro c hc
    simp only [bne_iff_ne, ne_eq]
    rintro rfl
    exact hb (by simpa using hc)
  rw [splitLast, if_pos h1]
  simp only [h2, List.reverse_reverse]
  rw [show (a ++ sep :: b).length - b.length - 1 = a.length by simp; omega, List.take_left]

theorem unescape_plain (v : Bytes) (h : ∀ c ∈ v, c ≠ 37) : unescape v = some v := by
  induction v with
  | nil => rfl
  | cons c v ih =>
    have ih := ih fun x hx => h x (by simp [hx])
    have hc := h c (by simp)
    unfold unescape
    split
    · rename_i he; cases he
    · rename_i he; cases he; exact absurd rfl hc
    · rename_i he
      cases he
      rw [if_neg hc, ih]; rfl

theorem inUserinfo_facts : ∀ c : UInt8, inUserinfo c = true →
    ((c ≤ 32) = False ∧ (c = 127) = False) ∧ (c != 47 && c != 63 && c != 35) = true := by
  have h : ∀ i : Fin 256, inUserinfo (UInt8.ofNat i.val) = true → (¬ (UInt8.ofNat i.val ≤ 32) ∧ UInt8.ofNat i.val ≠ 127) ∧
      (UInt8.ofNat i.val != 47 && UInt8.ofNat i.val != 63 && UInt8.ofNat i.val != 35) = true := by decide +kernel
  intro c hc
  have := h ⟨c.toNat, c.toNat_lt⟩
  simp only [UInt8.ofNat_toNat] at this
  have := this hc
  simpa using this

theorem inHost_facts : ∀ c : UInt8, inHost c = true → inUserinfo c = true ∧ c ≠ 64 ∧ c ≠ 58 := by
  have h : ∀ i : Fin 256, inHost (UInt8.ofNat i.val) = true → inUserinfo (UInt8.ofNat i.val) = true ∧ UInt8.ofNat i.val ≠ 64 ∧
      UInt8.ofNat i.val ≠ 58 := by decide +kernel
  intro c hc
  have := h ⟨c.toNat, c.toNat_lt⟩
  simp only [UInt8.ofNat_toNat] at this
  exact this hc

theorem isDigit_facts (c : UInt8) (h : isDigit c = true) : inHost c = true := by simp [inHost, h]

theorem amqpRead_amqpUrl (c : List (Bytes × Bytes)) (hu : PlainUri (setting c (go!"user"))) (huc : ¬ (58 : UInt8) ∈ setting c (go!"user"))
    (hpw : PlainUri (setting c (go!"password"))) (hh0 : setting c (go!"host") ≠ []) (hh : ∀ x ∈ setting c (go!"host"), inHost x = true)
    (hp0 : setting c (go!"port") ≠ []) (hp : ∀ x ∈ setting c (go!"port"), isDigit x = true) (hpl : decimal (setting c (go!"port")) < 2 ^ 31) :
    amqpRead (amqpUrl c) =
      some ⟨setting c (go!"user"), setting c (go!"password"), setting c (go!"host"), decimal (setting c (go!"port"))⟩ := by
  unfold amqpUrl
  generalize setting c (go!"user") = u at *
  generalize setting c (go!"password") = pw at *
  generalize setting c (go!"host") = ho at *
  generalize setting c (go!"port") = po at *
  have ea : go!"amqp://" ++ u ++ go!":" ++ pw ++ go!"@" ++ ho ++ go!":" ++ po ++ go!"/" =
      go!"amqp://" ++ ((u ++ 58 :: pw) ++ 64 :: (ho ++ 58 :: po) ++ 47 :: []) := by simp
  have hall : ∀ x ∈ (u ++ 58 :: pw) ++ 64 :: (ho ++ 58 :: po), inUserinfo x = true := by
    intro x hx
    simp only [List.mem_append, List.mem_cons] at hx
    rcases hx with (hx | rfl | hx) | rfl | hx | rfl | hx
    · exact (hu x hx).1
    · decide
    · exact (hpw x hx).1
    · decide
    · exact (inHost_facts x (hh x hx)).1
    · decide
    · exact (inHost_facts x (isDigit_facts x (hp x hx))).1
  rw [ea, amqpRead, if_neg]
  swap
  · rintro (h | h)
    · exact h (by simp)
    · rw [List.any_append, List.any_append, Bool.or_eq_true, Bool.or_eq_true] at h
      rcases h with h | h | h
      · revert h; decide
      · rw [List.any_eq_true] at h
        obtain ⟨x, hx, h⟩ := h
        have := (inUserinfo_facts x (hall x hx)).1
        simp [this.1, this.2] at h
      · revert h; decide
  have e7 : ∀ r : Bytes, (go!"amqp://" ++ r).drop 7 = r := fun r => by simp
  rw [e7, (span_all _ [] (fun x hx => (inUserinfo_facts x (hall x hx)).2) 47 (by decide)).1, splitLast_mk]
  swap
  · intro h
    simp only [List.mem_append, List.mem_cons] at h
    rcases h with h | h | h
    · exact (inHost_facts _ (hh _ h)).2.1 rfl
    · revert h; decide
    · exact (inHost_facts _ (isDigit_facts _ (hp _ h))).2.1 rfl
  simp only
  have hsp := span_all (p := (· != 58)) u pw (by intro x hx; simp only [bne_iff_ne, ne_eq]; rintro rfl; exact huc hx) 58 (by decide)
  rw [if_neg, hsp.1, hsp.2, unescape_plain u fun x hx => (hu x hx).2, List.drop_succ_cons, List.drop_zero,
    unescape_plain pw fun x hx => (hpw x hx).2, splitLast_mk]
  · simp only
    rw [if_neg, if_neg hh0, if_neg hp0]
    rintro (h | h | h)
    · rw [List.any_eq_true] at h
      obtain ⟨x, hx, h⟩ := h
      simp [hh x hx] at h
    · rw [List.any_eq_true] at h
      obtain ⟨x, hx, h⟩ := h
      simp [hp x hx] at h
    · omega
  · intro h
    exact (inHost_facts _ (isDigit_facts _ (hp _ h))).2.2 rfl
  · rintro (h | h)
    · rw [List.any_eq_true] at h
      obtain ⟨x, hx, h⟩ := h
      rw [hall x (List.mem_append_left _ hx)] at h
      simp at h
    · simp at h

end Egts
