import Verif.Proofs.AllocFrame
import Verif.Props.Layout

/-! # C95: the memory that decoding takes -/

namespace Egts

open Layout

/-- It is not true that decoding takes about as much memory as the input is long. For every `d` there is a packet of `13 d + 13` bytes that
`Decode` accepts, and for whose records buffers of `65533 d` bytes are in use at a time. -/
theorem C95_false (env : Env) (key : Option SecretKey) (p : Package) (sp : Bytes) (d : Nat) (hd : d ≤ 5040) :
    ∃ b, b.length = 13 * d + 13 ∧ (∃ q, Package.decode env key p ⟨b, sp⟩ = .ret q 0 none) ∧ 65533 * d ≤ inUse env (Frame.body b) := by
  have hl := nestedRecords_length d
  obtain ⟨rs, hrs⟩ := nested_records d 0 (fun _ => ⟨0, rfl⟩) (by omega)
  rw [show zeros 0 = [] from rfl, List.append_nil] at hrs
  have hb := frameAround_body (nestedRecords d) (by omega)
  refine ⟨frameAround (nestedRecords d), by rw [frameAround_length, hl], ⟨_, (C81_package env key p _ _).mpr ⟨frameAround_ok _ (by omega) sp, _,
    frameAround_content _ (by omega) key hrs, rfl⟩⟩, ?_⟩
  rw [hb]
  exact nested_inUse env d (by omega)

/-- For example, 330 million bytes for a packet of 65533. -/
example (env : Env) : ∃ b, b.length = 65533 ∧ (∃ q, Package.decode env none {} ⟨b, []⟩ = .ret q 0 none) ∧ 330000000 ≤ inUse env (Frame.body b) := by
  obtain ⟨b, h1, h2, h3⟩ := C95_false env none {} [] 5040 (by omega)
  exact ⟨b, h1, h2, by omega⟩

/-- More than that cannot happen: the buffers in use at a time are at most one of full size for every thirteen bytes, be the decoding
successful or not. -/
theorem C95_bound_partial (env : Env) (b : Bytes) : inUse env b ≤ 65535 * ((b.length + 12) / 13) := inUse_le env b

/-- All the buffers together, one after the other or at a time, are at most one of full size for every seven bytes. -/
theorem C95_total_partial (env : Env) (b : Bytes) : setAside env b ≤ 65535 * ((b.length + 6) / 7) :=
  sds_alloc_le (fun _ _ => Nat.le_refl _) env b

/-- Without record responses all the buffers together are about as long as the input: only the last record can declare more than there is. -/
theorem C95_linear_partial (env : Env) (b : Bytes) (out : List ServiceDataRecord) (h : ServiceDataSet.decode env [] b = .ok out)
    (hn : NoResponses out) : setAside env b ≤ b.length + 65528 := by
  have := sdsAlloc_linear (f := rdsDecodeD env (depthFor b.length))
    (rdsA := fun x => rdsAlloc (· + ·) env (srRespDecode env (depthFor b.length)) (respAlloc (· + ·) env (depthFor b.length)) x.length x)
    (fun x rds hx hr => rdsAlloc_none _ [] x rds hx hr) b.length [] b out h hn
  unfold setAside ServiceDataSet.alloc
  split at this <;> omega

/-- Two records with a result code each. -/
example : ∃ out, ServiceDataSet.decode ⟨fun _ => 0⟩ [] [4, 0, 0, 0, 0, 2, 2, 9, 1, 0, 0, 4, 0, 1, 0, 0, 2, 2, 9, 1, 0, 0] = .ok out ∧ NoResponses out ∧
    setAside ⟨fun _ => 0⟩ [4, 0, 0, 0, 0, 2, 2, 9, 1, 0, 0, 4, 0, 1, 0, 0, 2, 2, 9, 1, 0, 0] = 8 :=
  ⟨_, by with_unfolding_all rfl, by unfold NoResponses; decide, by decide +kernel⟩

end Egts
