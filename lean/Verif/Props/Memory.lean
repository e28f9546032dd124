import Verif.Proofs.Memory
import Verif.Proofs.Decoded
import Verif.Props.Packages

/-!
# What `Decode` looks at, and `Encode` on incomplete packages (C77-C79)

A `Slice` is what a Go slice refers to: the bytes up to its length (`data`), and those of the same array behind them
(`spare`), which do not belong to the caller's message.
-/

namespace Egts

/-! ## C77 -/

/-- sixteen bytes that declare a header of seventeen -/
def peeking : Bytes := [1, 0, 0, 17, 0, 3, 0, 254, 0, 0, 154, 216, 0, 0, 173, 173]

set_option maxRecDepth 20000 in
/-- Full statement of C77 (not provable): `∀ env key p b sp sp', Package.decode env key p ⟨b, sp⟩ = Package.decode env key p ⟨b, sp'⟩`.
The same sixteen bytes are accepted, refused, or make `Decode` panic, according to what lies behind them. -/
theorem C77_false (env : Env) : ∃ b : Bytes, ∀ key p,
    (∃ q, Package.decode env key p ⟨b, [0, 1, 2, 3]⟩ = .ret q 0 none) ∧
    (∃ q e, Package.decode env key p ⟨b, [0, 1, 2, 4]⟩ = .ret q 137 (some e)) ∧
    Package.decode env key p ⟨b, []⟩ = .panic :=
  ⟨peeking, fun _ _ => ⟨⟨_, by with_unfolding_all rfl⟩, ⟨_, _, by with_unfolding_all rfl⟩, by with_unfolding_all rfl⟩⟩

/-- On every input on which `Decode` does not panic when nothing lies behind it (all honest frames are such, C11), the result
does not depend on what does: code, error and all fields of the receiver. Missing: the inputs on which it does panic, see
`C77_false`; they are those of `C11_panics_iff`. -/
theorem C77_only_the_bytes_partial (env : Env) (key : Option SecretKey) (p : Package) (b sp : Bytes)
    (h : Package.decode env key p ⟨b, []⟩ ≠ .panic) : Package.decode env key p ⟨b, sp⟩ = Package.decode env key p ⟨b, []⟩ :=
  decode_spare env key p b sp h

/-- In particular nothing behind the slice matters for a frame that declares its header length correctly, or is too short for
a header. -/
theorem C77_honest (env : Env) (key : Option SecretKey) (p : Package) (b sp sp' : Bytes)
    (h : Frame.Honest b ∨ b.length ≤ Frame.hcsPos b) : Package.decode env key p ⟨b, sp⟩ = Package.decode env key p ⟨b, sp'⟩ := by
  have hn := C11_no_panic_partial env key p ⟨b, []⟩ h
  rw [C77_only_the_bytes_partial env key p b sp hn, C77_only_the_bytes_partial env key p b sp' hn]

example : Frame.Honest respFrame ∧ Frame.Honest (respFrame.set 14 7) ∧ (respFrame.take 9).length ≤ Frame.hcsPos (respFrame.take 9) := by
  decide +kernel

/-! ## C78 -/

/-- If all of the frame is there, and `Decode` of it alone does not panic, then what follows it in the slice, or behind the
slice, changes nothing. -/
theorem C78_following_bytes (env : Env) (key : Option SecretKey) (p : Package) (b t sp : Bytes) (hlen : Frame.total b ≤ b.length)
    (h : Package.decode env key p ⟨b, []⟩ ≠ .panic) : Package.decode env key p ⟨b ++ t, sp⟩ = Package.decode env key p ⟨b, []⟩ := by
  rw [decode_append env key p b t sp hlen]
  exact decode_spare env key p b _ h

/-- So what a package is encoded to is decoded, when other bytes follow it, as if it came alone; if it has a body and HL+FDL
fits 16 bits. -/
theorem C78_first_of_many (env : Env) (key : Option SecretKey) (p p' p0 : Package) (out t sp : Bytes) (h : p.encode env key = (p', .ok out))
    (hw : p.HeadWF) (hfit : ∀ body, p.Body env key body → body ≠ [] ∧ p.fullHL + body.length < 2 ^ 16) :
    Package.decode env key p0 ⟨out ++ t, sp⟩ = Package.decode env key p0 ⟨out, []⟩ := by
  obtain ⟨body, hb, _⟩ := C09_layout env key p p' out h hw.2.2.2.2.2
  obtain ⟨hb0, hf⟩ := hfit body hb
  obtain ⟨fl, head, h1, h2, h3, h4⟩ := encode_shape env key hw hb (by omega)
  rw [h, if_neg hb0] at h4
  obtain ⟨_, _, f1, f2, _, f3, _, _, _, f4, _⟩ := encoded_facts (body := body) hw (by omega) h1 h2 (body ++ put16 (crc16 body))
  have ho : out = head ++ [crc8 head] ++ (body ++ put16 (crc16 body)) := by
    have := congrArg Prod.snd h4
    injection this
  rw [← ho] at f1 f2 f3 f4
  have hp : (put16 (crc16 body)).length = 2 := rfl
  refine C78_following_bytes env key p0 out t sp ?_ (C11_no_panic_partial env key p0 ⟨out, []⟩ (.inl ⟨?_, ?_⟩))
  · unfold Frame.total
    rw [f2, f3, f4, List.length_append, hp]
    omega
  · rw [f1, f3]
    omega
  · rw [f1, f2]
    omega

example (env key) : appPackage.HeadWF ∧ ∀ body, appPackage.Body env key body → body ≠ [] ∧ appPackage.fullHL + body.length < 2 ^ 16 := by
  refine ⟨by decide, fun body hb => ?_⟩
  have e : ServiceDataSet.encode env [sdrExample, sdrExample2] = .ok appBody := by with_unfolding_all rfl
  have : body = appBody := body_unique hb ⟨appBody, e, .inl ⟨rfl, rfl⟩⟩
  subst this
  decide

example : Frame.total respFrame ≤ respFrame.length := by decide +kernel

/-! ## C79 -/

/-- a record with a subrecord that has a type but no content -/
def hollow : Package :=
  { manyRecords 0 with servicesFrameData := some (.sds [{ emptyRecord with recordDataSet := [{ subrecordType := 16 }] }]) }

/-- Full statement of C79 (not provable): `∀ env key p, (p.encode env key).2 ≠ .error .panic`. A subrecord with a type and
without content (a nil interface) makes `Encode` panic. -/
theorem C79_false (env : Env) (key : Option SecretKey) : ∃ p : Package, p.HeadWF ∧ (p.encode env key).2 = .error .panic :=
  ⟨hollow, by decide, by with_unfolding_all rfl⟩

/-- `Encode` does not panic if every subrecord has content; whatever the flags, the lengths and the values are. Missing:
subrecords without content, see `C79_false`. -/
theorem C79_no_panic_partial (env : Env) (key : Option SecretKey) (p : Package)
    (h : ∀ r ∈ p.records, ∀ x ∈ r.recordDataSet, x.subrecordData ≠ none) : (p.encode env key).2 ≠ .error .panic :=
  package_no_panic env key p h

/-- A package that `Decode` returned can always be given to `Encode`: it returns bytes or an error. -/
theorem C79_decoded (env : Env) (key key' : Option SecretKey) (p q : Package) (c : Slice) (err : Option Err)
    (h : Package.decode env key p c = .ret q 0 err) : (q.encode env key').2 ≠ .error .panic :=
  C79_no_panic_partial env key' q
    (records_all (P := fun x => x.subrecordData ≠ none) (Q := fun r => ∀ x ∈ r.recordDataSet, x.subrecordData ≠ none)
      (fun _ _ _ _ _ _ h => by cases h) (fun _ _ _ _ _ h => h) h)

example : (∀ r ∈ appPackage.records, ∀ x ∈ r.recordDataSet, x.subrecordData ≠ none) ∧ appPackage.records.length = 2 := by decide

end Egts
