import Verif.Proofs.SendEgts

/-! # The script that replays recorded packets (C86) -/

namespace Egts

/-- `tools/send_egts.py` sends just the packets that the file holds, in order, and waits for an answer after each. What is missing: the
last line must be ended like the others (`C86_false`). -/
theorem C86_sends_partial {file : Bytes} {ps : List Bytes} (h : Holds file ps) :
    sendEgts file = ps.flatMap (fun p => [.send p, .recv]) ++ [.close] := by
  have := pyLines_holds h [] (by simp)
  rw [List.append_nil] at this
  exact this

/-- Full statement of C86 (not provable): if the last line is not ended, its packet is not sent, and the script ends with an
exception. -/
theorem C86_false {file t p : Bytes} {ps : List Bytes} (h : Holds file ps) (ht : Shows t p) (hp : p ≠ []) :
    sendEgts (file ++ t) = ps.flatMap (fun p => [.send p, .recv]) ++ [.valueError] := by
  obtain ⟨c, t', rfl, hc, hc'⟩ := ht.head hp
  have e := pyLines_holds h (c :: t') (by simpa using hc)
  have e2 := pyLines_text [] ht []
  simp only [List.append_nil, List.nil_append] at e2
  rw [sendEgts, e, e2]
  simp only [pyLines, List.cons_ne_nil, if_false, sendLines, fromHex_odd ht hp]

/-- The digits may be written in either case, the lines ended as on any system. -/
def replayFile : Bytes := go!"01a0" ++ [13, 10] ++ (go!"FfE1" ++ [10] ++ [])

theorem replay_holds : Holds replayFile [[0x01, 0xa0], [0xff, 0xe1]] :=
  .cons (go!"01a0") [13, 10] _ _ _
    (.cons 48 49 1 _ _ (.inl (by decide)) (.inl (by decide)) (.cons 97 48 0xa0 _ _ (.inr (by decide)) (.inl (by decide)) .nil)) (by simp) (.inr (.inl rfl)) <|
  .cons (go!"FfE1") [10] _ _ _
    (.cons 70 102 0xff _ _ (.inr (by decide)) (.inr (by decide)) (.cons 69 49 0xe1 _ _ (.inr (by decide)) (.inl (by decide)) .nil)) (by simp) (.inl rfl) .nil

example : sendEgts replayFile = [.send [0x01, 0xa0], .recv, .send [0xff, 0xe1], .recv, .close] := C86_sends_partial replay_holds

example : sendEgts (replayFile ++ go!"0102") = [.send [0x01, 0xa0], .recv, .send [0xff, 0xe1], .recv, .valueError] :=
  C86_false replay_holds
    (.cons 48 49 1 _ _ (.inl (by decide)) (.inl (by decide)) (.cons 48 50 2 _ _ (.inl (by decide)) (.inl (by decide)) .nil)) (by simp)

/-- Against the receiver it never waits in vain: whatever the earlier calls of `recv` have returned of what was written, once the receiver
has dealt with the next packet there is something to receive, and so the script comes to the end of the file. -/
theorem C86_answered (env : Env) (ce : ConnEnv) (sent : List (Package × List ServiceDataRecord)) (frames : List Bytes)
    (hr : ∀ x ∈ sent, Report env x.1 x.2) (hf : List.Forall₂ (fun x f => (x.1.encode env none).2 = .ok f) sent frames) (k r : Nat)
    (h : Got env ce frames k r) (hk : k < frames.length) : ∃ m, Got env ce frames (k + 1) (r + m) := by
  have hs : List.Forall₂ (SentAs env) sent frames := forall₂_mono_mem (fun x hx f h => ⟨hr x hx, h⟩) hf
  obtain ⟨more, h1, h2⟩ := written_grows env ce sent frames hs k hk
  have hle := h.le
  have hpos : 0 < more.length := List.length_pos_of_ne_nil h1
  refine ⟨1, .recv k r 1 h (by decide) (by decide) ?_⟩
  rw [h2, List.length_append]
  omega

/-- A login and a position are replayed: two answers can be received, after 1 byte of the first or after all of it. -/
example (env : Env) (ce : ConnEnv) : ∃ frames r, List.Forall₂ (fun x f => (x.1.encode env none).2 = .ok f) deviceSends frames ∧ Got env ce frames 2 r := by
  obtain ⟨frames, hf⟩ := device_frames env
  have hl : frames.length = 2 := hf.length_eq.symm
  obtain ⟨m, h1⟩ := C86_answered env ce _ frames (device_reports env) hf 0 0 .start (by omega)
  obtain ⟨m', h2⟩ := C86_answered env ce _ frames (device_reports env) hf 1 _ h1 (by omega)
  exact ⟨frames, _, hf, h2⟩

end Egts
