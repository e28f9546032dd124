import Verif.Spec.SendEgts
import Verif.Props.EndToEnd

/-! # Lemmas about `tools/send_egts.py` -/

namespace Egts

set_option maxRecDepth 20000 in
theorem pyHexDigit_table : ∀ (c : Fin 256) (v : Fin 16),
    (v.val < 10 ∧ c.val = 48 + v ∨ 10 ≤ v.val ∧ v.val < 16 ∧ (c.val = 87 + v ∨ c.val = 55 + v)) →
    pyHexDigit (UInt8.ofNat c) = some (UInt8.ofNat v) ∧ pySpace (UInt8.ofNat c) = false := by
  decide +kernel

theorem pyHexDigit_shows {c : UInt8} {v : Nat} (h : ShowsNibble c v) : pyHexDigit c = some (UInt8.ofNat v) ∧ pySpace c = false ∧ v < 16 ∧ c ≠ 10 ∧ c ≠ 13 := by
  have hv : v < 16 := by unfold ShowsNibble at h; omega
  have := pyHexDigit_table ⟨c.toNat, c.toNat_lt⟩ ⟨v, hv⟩ h
  simp only [UInt8.ofNat_toNat] at this
  refine ⟨this.1, this.2, hv, ?_, ?_⟩ <;>
  · rintro rfl
    exact absurd this.2 (by decide)

theorem nibbles (b : UInt8) : UInt8.ofNat (b.toNat / 16) * 16 + UInt8.ofNat (b.toNat % 16) = b := by
  rw [← UInt8.toNat_inj, UInt8.toNat_add, UInt8.toNat_mul, UInt8.toNat_ofNat', UInt8.toNat_ofNat']
  have := b.toNat_lt
  show (b.toNat / 16 % 256 * 16 % 256 + b.toNat % 16 % 256) % 256 = b.toNat
  omega

theorem fromHex_shows {t p : Bytes} (h : Shows t p) : fromHex t = some p := by
  induction h with
  | nil => rfl
  | cons c d b t bs hc hd ht ih =>
    obtain ⟨c1, c2, _⟩ := pyHexDigit_shows hc
    obtain ⟨d1, d2, _⟩ := pyHexDigit_shows hd
    rw [fromHex, c2, c1, d1, ih]
    simp [nibbles]

/-- One digit too few. -/
theorem fromHex_odd {t p : Bytes} (h : Shows t p) (hp : p ≠ []) : fromHex t.dropLast = none := by
  induction h with
  | nil => exact absurd rfl hp
  | cons c d b t bs hc hd ht ih =>
    obtain ⟨c1, c2, _⟩ := pyHexDigit_shows hc
    obtain ⟨d1, d2, _⟩ := pyHexDigit_shows hd
    cases ht with
    | nil => simp [fromHex, c2]
    | cons c' d' b' t' bs' hc' hd' ht' =>
      have := ih (by simp)
      rw [List.dropLast_cons_cons, List.dropLast_cons_cons, fromHex, c2, c1, d1]
      simp only [Bool.false_eq_true, if_false]
      rw [this]
      rfl

theorem pyLines_char (cur : Bytes) (c : UInt8) (r : Bytes) (h1 : c ≠ 10) (h2 : c ≠ 13) : pyLines cur (c :: r) = pyLines (cur ++ [c]) r := by
  conv_lhs => unfold pyLines
  split <;> simp_all

theorem pyLines_text (rest : Bytes) {t p : Bytes} (h : Shows t p) : ∀ cur, pyLines cur (t ++ rest) = pyLines (cur ++ t) rest := by
  induction h with
  | nil => intro cur; simp
  | cons c d b t bs hc hd ht ih =>
    intro cur
    obtain ⟨_, _, _, c3, c4⟩ := pyHexDigit_shows hc
    obtain ⟨_, _, _, d3, d4⟩ := pyHexDigit_shows hd
    rw [List.cons_append, List.cons_append, pyLines_char _ _ _ c3 c4, pyLines_char _ _ _ d3 d4, ih]
    simp

/-- An ended line, unless `\r` is followed by the `\n` of an empty line. -/
theorem pyLines_end (cur e rest : Bytes) (he : LineEnd e) (hr : e = [13] → rest.head? ≠ some 10) :
    pyLines cur (e ++ rest) = (cur ++ [10]) :: pyLines [] rest := by
  rcases he with rfl | rfl | rfl
  · rw [List.cons_append, List.nil_append, pyLines]
  · rw [List.cons_append, List.cons_append, List.nil_append, pyLines]
  · have := hr rfl
    rw [List.cons_append, List.nil_append]
    conv_lhs => unfold pyLines
    split
    · simp_all
    · rename_i h; simp at h
    · rename_i h; simp at h; rw [h] at this; simp at this
    · rename_i h; simp at h; rw [h]
    · rename_i h1 h2 h3 h; simp at h; exact absurd h.1.symm h3

theorem Shows.head {t p : Bytes} (h : Shows t p) (hp : p ≠ []) : ∃ c t', t = c :: t' ∧ c ≠ 10 ∧ c ≠ 13 := by
  cases h with
  | nil => exact absurd rfl hp
  | cons c d b t bs hc hd ht =>
    obtain ⟨_, _, _, c3, c4⟩ := pyHexDigit_shows hc
    exact ⟨c, _, rfl, c3, c4⟩

theorem Holds.head {file : Bytes} {ps : List Bytes} (h : Holds file ps) (rest : Bytes) (hr : rest.head? ≠ some 10) : (file ++ rest).head? ≠ some 10 := by
  cases h with
  | nil => simpa using hr
  | cons t e p file ps ht hp he hr =>
    obtain ⟨c, t', rfl, hc, _⟩ := ht.head hp
    simpa using hc

theorem pyLines_holds {file : Bytes} {ps : List Bytes} (h : Holds file ps) (rest : Bytes) (hrest : rest.head? ≠ some 10) :
    sendLines (pyLines [] (file ++ rest)) = ps.flatMap (fun p => [.send p, .recv]) ++ sendLines (pyLines [] rest) := by
  induction h with
  | nil => simp
  | cons t e p file ps ht hp he hr ih =>
    rw [List.append_assoc, List.append_assoc, pyLines_text _ ht, List.nil_append, pyLines_end t e _ he (fun _ => hr.head rest hrest), sendLines,
      List.dropLast_concat, fromHex_shows ht]
    simp only
    rw [ih]
    simp

/-! ## Together with the receiver -/

theorem IsResponse.ne_nil {env : Env} {b : Bytes} {pid : UInt16} {r : PtResponse} (h : IsResponse env b pid r) : b ≠ [] := by
  rintro rfl
  obtain ⟨q, h1, _⟩ := h {} []
  revert h1
  exact fun h1 => by cases h1

theorem Answers.ne_nil {env : Env} {x : Package × List ServiceDataRecord} {ws : List Bytes} (h : Answers env x ws) : ws.flatten ≠ [] := by
  obtain ⟨ack, h1, rfl⟩ := h
  have := h1.ne_nil
  simp [this]

theorem writes_saves_writes : ∀ (recs : List NavRecord) (ws : List Bytes), writes (recs.map .save ++ ws.map .write) = ws
  | [], [] => rfl
  | [], w :: ws => by
    show w :: writes ([].map .save ++ ws.map .write) = _
    rw [writes_saves_writes [] ws]
  | _ :: recs, ws => writes_saves_writes recs ws

/-- Each packet is answered. -/
theorem written_grows (env : Env) (ce : ConnEnv) (sent : List (Package × List ServiceDataRecord)) (frames : List Bytes)
    (hs : List.Forall₂ (SentAs env) sent frames) (k : Nat) (hk : k < frames.length) :
    ∃ more, more ≠ [] ∧ written env ce frames (k + 1) = written env ce frames k ++ more := by
  have hlen := hs.length_eq
  obtain ⟨hw, hn⟩ := frames_good ce (List.forall₂_take (k + 1) hs)
  obtain ⟨hw', hn'⟩ := frames_good ce (List.forall₂_take k hs)
  have e1 := C42_each_frame env ce _ hw hn
  have e2 := C42_each_frame env ce _ hw' hn'
  have hxf : SentAs env (sent[k]'(by omega)) frames[k] := (List.forall₂_iff_get.mp hs).2 k (by omega) hk
  obtain ⟨recs, ws, h1, _, h3⟩ := handlePacket_sent hxf (ce.clock k) (lastOr (idsBefore env ce frames k) 0) (ce.spare k)
  have hids : ∀ i j, i ≤ j → idsBefore env ce (frames.take j) i = idsBefore env ce frames i := by
    intro i j hij
    unfold idsBefore
    rw [List.take_take, Nat.min_eq_left hij]
  refine ⟨ws.flatten, h3.ne_nil, ?_⟩
  unfold written
  rw [e1, e2, List.take_succ_eq_append_getElem hk, List.zipIdx_append, List.flatMap_append]
  have hl : (frames.take k).length = k := by rw [List.length_take]; omega
  have ha : (frames.take k).zipIdx.flatMap (fun (f, i) => (handlePacket env (ce.clock i)
        (lastOr (idsBefore env ce (frames.take k ++ [frames[k]]) i) 0) ⟨f, ce.spare i⟩).effs) =
      (frames.take k).zipIdx.flatMap (fun (f, i) => (handlePacket env (ce.clock i) (lastOr (idsBefore env ce (frames.take k) i) 0) ⟨f, ce.spare i⟩).effs) := by
    rw [List.flatMap_def, List.flatMap_def]
    congr 1
    apply List.map_congr_left
    rintro ⟨f, i⟩ hfi
    have hi : i < k := by
      have := List.snd_lt_of_mem_zipIdx hfi
      omega
    simp only
    rw [← List.take_succ_eq_append_getElem hk, hids i (k + 1) (by omega), hids i k (by omega)]
  rw [ha, hl]
  have hb : [frames[k]].zipIdx (0 + k) = [(frames[k], k)] := by simp
  rw [hb, List.flatMap_singleton]
  simp only
  rw [← List.take_succ_eq_append_getElem hk, hids k (k + 1) (by omega), h1]
  have hwa : ∀ a b : List Effect, writes (a ++ b) = writes a ++ writes b := fun a b => List.filterMap_append
  rw [hwa, writes_saves_writes, List.flatten_append]

theorem Got.le {env : Env} {ce : ConnEnv} {frames : List Bytes} {k r : Nat} (h : Got env ce frames k r) : r ≤ (written env ce frames k).length := by
  cases h with
  | start => exact Nat.zero_le _
  | recv k r m h h1 h2 h3 => exact h3

end Egts
